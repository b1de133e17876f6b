/-
C97: the fewer digits are given, the longer the time.
-/
import Verif.LemmasVague
namespace EDTF
open Spec

variable {f : Int → Nat → Nat → Int}

/-- The first result begins no later and ends no earlier than the second. -/
def Covers (e d : EDTFDate) : Prop := ∃ l u l' u', Timed e l' u' ∧ Timed d l u ∧ l' ≤ l ∧ u ≤ u'

theorem covers_days (hf : DayCount f) {e d : EDTFDate} {y1 y2 z1 z2 : Int} {m1 m2 n1 n2 d1 d2 c1 c2 : Nat}
    (h : Timed e (86400 * f y1 m1 d1) (86400 * f y2 m2 d2 + 86399)) (k : Timed d (86400 * f z1 n1 c1) (86400 * f z2 n2 c2 + 86399))
    (V1 : Valid y1 m1 d1) (V2 : Valid y2 m2 d2) (W1 : Valid z1 n1 c1) (W2 : Valid z2 n2 c2)
    (hl : dayLe y1 m1 d1 z1 n1 c1 ∧ dayLe z2 n2 c2 y2 m2 d2) : Covers e d := by
  have := day_order hf V1 W1 hl.1
  have := day_order hf W2 V2 hl.2
  exact ⟨_, _, _, _, h, k, by omega, by omega⟩

theorem dash_ne_q {q : Char} (h : isQ q = true) : '-' ≠ q := by
  rintro rfl
  cases h

/-- An endpoint whose month is "0X" is one of these texts. -/
theorem zero_text {e : Endpoint} (h : e.shape) (hm : e.date.mx = c! "0X") (l r : Str) : ZeroMonth (l ++ (e.text ++ r)) := by
  obtain ⟨⟨neg, y, t⟩, qy, qm, qd⟩ := e
  obtain ⟨⟨hl, hy, -⟩, h1, h2, h3, -⟩ := h
  simp only at hl hy h1 h2 h3
  obtain ⟨a, b, c, d, rfl⟩ := four_chars hl
  have nd : '-' ∉ [a, b, c, d] := fun k => absurd (xall hy '-' k) (by decide)
  -- the last four characters of the year
  obtain ⟨u, w, hw, nw, eu⟩ : ∃ u w, w.length = 4 ∧ '-' ∉ w ∧ qy.text (if neg then '-' :: [a, b, c, d] else [a, b, c, d]) = u ++ w := by
    cases qy with
    | none =>
      cases neg
      · exact ⟨[], _, rfl, nd, rfl⟩
      · exact ⟨['-'], _, rfl, nd, rfl⟩
    | left q =>
      cases neg
      · exact ⟨[q], _, rfl, nd, rfl⟩
      · exact ⟨[q, '-'], _, rfl, nd, rfl⟩
    | right q =>
      have nq : '-' ∉ [b, c, d, q] := by
        intro k
        have := dash_ne_q (deco_ok_right q ▸ h1)
        simp only [List.mem_cons, List.not_mem_nil, or_false, not_or] at k nd
        rcases k with k | k | k | k
        · exact nd.2.1 k
        · exact nd.2.2.1 k
        · exact nd.2.2.2 k
        · exact this k
      cases neg
      · exact ⟨[a], _, rfl, nq, rfl⟩
      · exact ⟨['-', a], _, rfl, nq, rfl⟩
  obtain ⟨g, v, hg, ev⟩ : ∃ g v, g ∈ [[], c! "?", c! "~", c! "%"] ∧ qm.text (c! "0X") = g ++ '0' :: 'X' :: v := by
    cases qm with
    | none => exact ⟨[], [], by simp, rfl⟩
    | left q =>
      refine ⟨[q], [], ?_, rfl⟩
      rw [deco_ok_left] at h2
      simp only [isQ, Bool.or_eq_true, beq_iff_eq] at h2
      rcases h2 with (rfl | rfl) | rfl <;> decide
    | right q => exact ⟨[], [q], by simp, rfl⟩
  cases t with
  | none => cases hm
  | month m =>
    have hm : m = c! "0X" := hm
    subst hm
    refine ⟨l ++ u, w, g, v ++ r, hw, nw, hg, ?_⟩
    simp only [Endpoint.text, eu, ev]
    simp
  | day m x =>
    have hm : m = c! "0X" := hm
    subst hm
    refine ⟨l ++ u, w, g, v ++ '-' :: (qd.text x ++ r), hw, nw, hg, ?_⟩
    simp only [Endpoint.text, eu, ev]
    simp

/-- A date of ten characters has a year without sign, a month, and a day. -/
theorem ten_chars {x : XDate} (h : x.ok) (hl : x.text.length = 10) : ∃ y m d, x = ⟨false, y, .day m d⟩ ∧ y.length = 4 ∧ m.length = 2 ∧ d.length = 2 := by
  obtain ⟨neg, y, t⟩ := x
  obtain ⟨h1, -, h2⟩ := h
  simp only at h1 h2
  rw [xtext] at hl
  cases t with
  | none => cases neg <;> simp [sgn, h1] at hl
  | month m => cases neg <;> simp [sgn, h1, h2.1] at hl
  | day m d =>
    cases neg with
    | false => exact ⟨_, _, _, rfl, h1, h2.1, h2.2.2.1⟩
    | true => simp [sgn, h1, h2.1, h2.2.2.1] at hl

theorem parts_vague {y p q y' p' q' : Str} (hy : y.length = 4) (hy' : y'.length = 4) (hp : p.length = 2) (hp' : p'.length = 2)
    (h : Vaguer (y ++ '-' :: (p ++ '-' :: q)) (y' ++ '-' :: (p' ++ '-' :: q'))) : Vaguer y y' ∧ Vaguer p p' ∧ Vaguer q q' := by
  obtain ⟨k1, h⟩ := vague_parts h (by rw [hy, hy'])
  obtain ⟨s, e, h⟩ := vague_keep (by decide) h
  cases e
  obtain ⟨k2, h⟩ := vague_parts h (by rw [hp, hp'])
  obtain ⟨s, e, h⟩ := vague_keep (by decide) h
  cases e
  exact ⟨k1, k2, h⟩

theorem loose_filter {n m : Nat} {a b : Char} (h : LooseDay a b) :
    (pad4 n ++ '-' :: (pad2 m ++ ['-', a, b])).filter (fun c => !isQ c) = pad4 n ++ '-' :: (pad2 m ++ '-' :: [a, b]) := by
  refine List.filter_eq_self.2 ?_
  intro c hc
  have dg : ∀ {t : Str}, t.all isDig = true → c ∈ t → isQ c = false := fun ht hc => xdigit_noQ (dig_xdigit ht) c hc
  have hab := loose_chars h
  have sub : ∀ c ∈ c! "0123456789Xx", isQ c = false := by decide
  have : isQ c = false := by
    rcases List.mem_append.1 hc with hc | hc
    · exact dg (pad4_all n) hc
    rcases List.mem_cons.1 hc with rfl | hc
    · rfl
    rcases List.mem_append.1 hc with hc | hc
    · exact dg (pad2_all m) hc
    rcases List.mem_cons.1 hc with rfl | hc
    · rfl
    rcases List.mem_cons.1 hc with rfl | hc
    · exact sub _ hab.1
    rcases List.mem_cons.1 hc with rfl | hc
    · exact sub _ hab.2
    · cases hc
  rw [this]
  rfl

theorem loose_length (n m : Nat) (a b : Char) : (pad4 n ++ '-' :: (pad2 m ++ '-' :: [a, b])).length = 10 := by
  simp [pad4_length, pad2_length]

theorem whole_valid {n m : Nat} (h1 : 1 ≤ m) (h2 : m ≤ 12) : Valid n m 1 ∧ Valid n m (monthLen n m) :=
  ⟨⟨h1, h2, Nat.le_refl _, by have := (monthLen_pos n m).1; omega⟩, h1, h2, by have := (monthLen_pos n m).1; omega, Nat.le_refl _⟩

/-- Dates alone. -/
theorem reading_covers (hf : DayCount f) {m s : Str} {e d : EDTFDate} (h : Reading f m e) (k : Reading f s d) (v : Vaguer m s)
    (hz : ¬ ZeroMonth m) (ht : ¬ TenDays s) : Covers e d := by
  have v' := vague_filter v
  cases h with
  | @runs p hp _ y1 y2 m1 m2 d1 d2 hr hT =>
    have hz' : p.date.mx ≠ c! "0X" := fun k => hz (by simpa using zero_text hp k [] [])
    rw [filter_endpoint hp] at v'
    have V1 := hr.2.2.2.1
    have V2 := hr.2.2.2.2
    cases k with
    | @runs q hq _ z1 z2 n1 n2 c1 c2 hr' hT' =>
      rw [filter_endpoint hq] at v'
      exact covers_days hf hT hT' V1 V2 hr'.2.2.2.1 hr'.2.2.2.2 (runs_vague hp.1 hq.1 v' hz' hr hr')
    | month n' m' hn h1 h2 a b h hT' =>
      rw [loose_filter h] at v'
      obtain ⟨y, pm, pd, ex, l1, l2, l3⟩ := ten_chars hp.1 (by rw [vague_length v', loose_length])
      rw [ex] at hr hz' v'
      obtain ⟨hy, hm, hd, -, -⟩ := hr
      simp only [XDate.mx, XDate.dx] at hy hm hd hz'
      rw [xtext] at v'
      obtain ⟨k1, k2, k3⟩ := parts_vague l1 (pad4_length n') l2 (pad2_length m') v'
      obtain ⟨a1, a2⟩ := year_vague hy (.digits false n' hn) k1
      simp only [Bool.false_eq_true, if_false] at a1 a2
      obtain ⟨b1, b2⟩ := month_vague hm (.digits m' h1 h2) k2 hz'
      obtain ⟨W1, W2⟩ := whole_valid (n := n') h1 h2
      -- the day is "XX"
      have key : pd = c! "XX" := by
        rcases day_inv hd with ⟨e, -⟩ | ⟨d', -, -, e, -⟩ | ⟨e, -⟩ | ⟨e, -⟩ | ⟨e, -⟩ | ⟨e, -⟩ | ⟨e, -⟩
        · rw [e] at l3; cases l3
        · exfalso
          rw [e] at k3
          have e3 := vague_eq k3 (pad2_noX _)
          have dg : ∀ c ∈ [a, b], isDig c = true := by rw [e3]; exact List.all_eq_true.1 (pad2_all _)
          rcases h.2 with hx | hx
          · exact absurd (dg a (by simp)) (by rw [(by decide : ∀ c ∈ c! "Xx", isDig c = false) a hx]; decide)
          · exact absurd (dg b (by simp)) (by rw [(by decide : ∀ c ∈ c! "Xx", isDig c = false) b hx]; decide)
        · exfalso
          rw [e] at k3
          cases vague_eq k3 (by decide)
          revert h; decide
        · exact e
        all_goals
          exfalso
          rw [e] at k3
          obtain ⟨s, e1, k4⟩ := vague_keep (by decide) k3
          cases e1
          obtain ⟨c2, s2, e2, k5, j⟩ := vague_cons k4
          cases e2
          rcases j with rfl | ⟨-, i, hi, rfl⟩
          · exact ht ⟨n', m', _, hn, h1, h2, by decide, rfl⟩
          · rcases h.2 with hx | hx
            · revert hx; decide
            · exact (by decide : ∀ i, i < 10 → dig i ∉ c! "Xx") i hi hx
      rw [key] at hd
      rcases day_inv hd with ⟨e, -⟩ | ⟨d', -, -, e, -⟩ | ⟨e, -⟩ | ⟨-, rfl, rfl⟩ | ⟨e, -⟩ | ⟨e, -⟩ | ⟨e, -⟩
      · cases e
      · exact absurd e.symm (pad2_not (by decide))
      · exact absurd e (by decide)
      · refine covers_days hf hT hT' V1 V2 W1 W2 ?_
        unfold dayLe
        constructor
        · omega
        · by_cases g1 : (n' : Int) < y2
          · exact .inl g1
          · refine .inr ⟨by omega, ?_⟩
            by_cases g2 : m' < m2
            · exact .inl g2
            · refine .inr ⟨by omega, ?_⟩
              rw [show m' = m2 by omega, show (n' : Int) = y2 by omega]
              exact Nat.le_refl _
      · exact absurd e (by decide)
      · exact absurd e (by decide)
      · exact absurd e (by decide)
  | month n m hn h1 h2 a b h hT =>
    rw [loose_filter h] at v'
    obtain ⟨V1, V2⟩ := whole_valid (n := n) h1 h2
    cases k with
    | @runs q hq _ z1 z2 n1 n2 c1 c2 hr' hT' =>
      rw [filter_endpoint hq] at v'
      obtain ⟨y, pm, pd, ex, l1, l2, l3⟩ := ten_chars hq.1 (by rw [← vague_length v', loose_length])
      rw [ex] at hr' v'
      rw [xtext] at v'
      obtain ⟨k1, k2, -⟩ := parts_vague (pad4_length n) l1 (pad2_length m) l2 v'
      have e1 := vague_eq k1 (pad4_noX _)
      have e2 := vague_eq k2 (pad2_noX _)
      obtain ⟨hy, hm, -, W1, W2⟩ := hr'
      simp only [XDate.mx] at hy hm
      rw [e1] at hy k1
      rw [e2] at hm
      obtain ⟨a1, a2⟩ := year_vague (.digits false n hn) hy k1
      obtain ⟨a3, a4⟩ := year_vague hy (.digits false n hn) k1
      simp only [Bool.false_eq_true, if_false] at a1 a2 a3 a4
      obtain ⟨b1, b2⟩ := month_digits h1 h2 hm
      refine covers_days hf hT hT' V1 V2 W1 W2 ?_
      have g1 := W1.2.2.1
      have g2 := W2.2.2.2
      rw [b2, show z2 = (n : Int) by omega] at g2
      unfold dayLe
      constructor <;> omega
    | month n' m' hn' h1' h2' a' b' h' hT' =>
      rw [loose_filter h'] at v'
      obtain ⟨k1, k2, -⟩ := parts_vague (pad4_length n) (pad4_length n') (pad2_length m) (pad2_length m') v'
      have e1 := pad4_inj hn' hn (vague_eq k1 (pad4_noX _))
      have e2 := pad2_inj (by omega) (by omega) (vague_eq k2 (pad2_noX _))
      subst e1 e2
      exact ⟨_, _, _, _, hT, hT', Int.le_refl _, Int.le_refl _⟩

/-- Intervals. -/
theorem sides_covers (hf : DayCount f) {m s : Str} {e d : EDTFDate} (hm : parseString m = .ok e) (hs : parseString s = .ok d) (hsl : '/' ∈ m) (hX : 'X' ∈ m)
    (v : Vaguer m s) (hz : ¬ ZeroMonth m) : Covers e d := by
  obtain ⟨l, r, rfl, hl⟩ := List.eq_append_cons_of_mem hsl
  obtain ⟨l', r', rfl, v1, v2⟩ := vague_append v
  obtain ⟨r', rfl, v3⟩ := vague_keep (by decide) v2
  have hl' := one_slash hs
  have De := (C55_denotes hf _ _).1 hm
  have Dd := (C55_denotes hf _ _).1 hs
  rcases accepted_slash hl ((C54_language _).1 ⟨e, hm⟩) with ⟨a, b, ha, hb, ra, rb, rfl, rfl⟩ | ⟨ht, x, hx, rfl⟩ | ⟨ht, neg, n, u, hn, rfl, hu⟩
  · have sh : ∀ {p : Endpoint} {t : Str}, p.shape → Vaguer p.text t → ¬ (t = [] ∨ t = c! "..") := by
      rintro p t hp hv (rfl | rfl)
      · exact e_nonempty hp (List.length_eq_zero_iff.1 (vague_length hv))
      · generalize hg : p.text = g at hv
        have hd : '.' ∈ g := by
          generalize ht : c! ".." = t at hv
          cases hv with
          | nil => cases ht
          | same _ h => rw [(List.cons.inj ht).1]; simp
          | hidden k hk h => exact absurd (List.cons.inj ht).1.symm (dig_ne hk (by decide))
        exact e_not_mem (c := '.') hp (by decide) (by decide) (by decide) (hg ▸ hd)
    rcases accepted_slash hl' ((C54_language _).1 ⟨d, hs⟩) with ⟨a', b', ha', hb', ra', rb', rfl, rfl⟩ | ⟨ht, -⟩ | ⟨ht, -⟩
    · obtain ⟨y1, y2, m1, m2, d1, d2, hra⟩ := readable_runs ha
      obtain ⟨z1, z2, n1, n2, c1, c2, hrb⟩ := readable_runs hb
      obtain ⟨y1', y2', m1', m2', d1', d2', hra'⟩ := readable_runs ha'
      obtain ⟨z1', z2', n1', n2', c1', c2', hrb'⟩ := readable_runs hb'
      have ee := C55_unique hf De (.interval a b ha.1 hb.1 ra rb _ _ (RangeOf.date (f := f) a ha.1 _ _ _ _ _ _ hra) (RangeOf.date (f := f) b hb.1 _ _ _ _ _ _ hrb))
      have ed := C55_unique hf Dd (.interval a' b' ha'.1 hb'.1 ra' rb' _ _ (RangeOf.date (f := f) a' ha'.1 _ _ _ _ _ _ hra') (RangeOf.date (f := f) b' hb'.1 _ _ _ _ _ _ hrb'))
      have te : Timed e (86400 * f y1 m1 d1) (86400 * f z2 n2 c2 + 86399) := by
        rw [ee]; exact ⟨⟨_, ⟨_, rfl, rfl⟩, ts_start .., rfl, rfl⟩, _, ⟨_, rfl, rfl⟩, ts_end .., rfl, rfl⟩
      have td : Timed d (86400 * f y1' m1' d1') (86400 * f z2' n2' c2' + 86399) := by
        rw [ed]; exact ⟨⟨_, ⟨_, rfl, rfl⟩, ts_start .., rfl, rfl⟩, _, ⟨_, rfl, rfl⟩, ts_end .., rfl, rfl⟩
      have va := vague_filter v1
      have vb := vague_filter v3
      rw [filter_endpoint ha.1, filter_endpoint ha'.1] at va
      rw [filter_endpoint hb.1, filter_endpoint hb'.1] at vb
      have za : a.date.mx ≠ c! "0X" := fun k => hz (by simpa using zero_text ha.1 k [] ('/' :: b.text))
      have zb : b.date.mx ≠ c! "0X" := fun k => hz (by simpa using zero_text hb.1 k (a.text ++ ['/']) [])
      exact covers_days hf te td hra.2.2.2.1 hrb.2.2.2.2 hra'.2.2.2.1 hrb'.2.2.2.2
        ⟨(runs_vague ha.1.1 ha'.1.1 va za hra hra').1, (runs_vague hb.1.1 hb'.1.1 vb zb hrb hrb').2⟩
    · exact absurd ht (sh ha.1 v1)
    · exact absurd ht (sh hb.1 v3)
  · exfalso
    have := unm_append (unm_dots ht) (unm_cons (x := '/') (by decide) (unm_date x)) 'X' (by decide)
    exact this hX
  · exfalso
    have hu' : Unmarked u := by
      rcases hu with rfl | ⟨-, k, -, -, rfl | ⟨j, -, -, rfl⟩⟩
      · exact unm_nil
      · exact unm_cons (by decide) (unm_pad k).2
      · exact unm_cons (by decide) (unm_append (unm_pad k).2 (unm_cons (by decide) (unm_pad j).2))
    exact (unm_append (unm_append (unm_signed (unm_pad n).1) hu') (unm_cons (x := '/') (by decide) (unm_dots ht))) 'X' (by decide) hX

/-- C97: a text with digits left out begins no later and ends no earlier than the text with all of
them.  The exceptions: a month "0X" (it is read as October to December), a day of which only the
last digit is unspecified (it is read as the whole month when it stands alone), and the numbers
of seasons and of other parts of the year. -/
theorem C97_longer {m s : Str} {l u : Int} (h : Vaguer m s) (ha : ∃ e, parseString m = .ok e) (hz : ¬ ZeroMonth m) (ht : ¬ TenDays s) (hn : ¬ PartNumber s)
    (hs : Spans s l u) : ∃ l' u', Spans m l' u' ∧ l' ≤ l ∧ u ≤ u' := by
  obtain ⟨f, hf⟩ : ∃ f : Int → Nat → Nat → Int, DayCount f := ⟨_, dayCount_unixDay⟩
  by_cases hX : 'X' ∈ m
  · obtain ⟨e, he⟩ := ha
    obtain ⟨d, hd, d1, d2⟩ := hs
    have De := (C55_denotes hf _ _).1 he
    have Dd := (C55_denotes hf _ _).1 hd
    have hc : Covers e d := by
      rcases x_bare ((C54_language _).1 ⟨e, he⟩) hX with k | k
      · exact sides_covers hf he hd k hX h hz
      · have ks : XChars s := by
          intro c hc
          rcases vague_mem h hc with hc | hc
          · exact k c hc
          · obtain ⟨j, hj, rfl⟩ := (isDig_iff _).1 hc
            exact (by decide : ∀ k, k < 10 → dig k ∈ c! "0123456789-Xx") j hj
        have m0 : m ≠ [] := by rintro rfl; cases hX
        have s0 : s ≠ [] := by
          rintro rfl
          exact m0 (List.length_eq_zero_iff.1 (vague_length h))
        have mn : ¬ PartNumber m := by
          rintro ⟨neg, n, j, -, -, -, rfl⟩
          exact (unm_append (unm_signed (unm_pad n).1) (unm_cons (x := '-') (by decide) (unm_pad j).2)) 'X' (by decide) hX
        exact reading_covers hf (bare_reading hf De k m0 mn) (bare_reading hf Dd ks s0 hn) h hz ht
    obtain ⟨l1, u1, l2, u2, t1, t2, c1, c2⟩ := hc
    obtain ⟨a1, a2⟩ := timed_lower t1
    obtain ⟨b1, b2⟩ := timed_lower t2
    rw [d1] at b1; rw [d2] at b2
    cases b1; cases b2
    exact ⟨l2, u2, ⟨e, he, a1, a2⟩, c1, c2⟩
  · cases vague_eq h hX
    exact ⟨l, u, hs, Int.le_refl _, Int.le_refl _⟩

/-- C97: so what is found of the text with fewer digits holds for the text with all of them: if the
first is before or after a date, so is the second. -/
theorem C97_compare {m s t : Str} (h : Vaguer m s) (ha : ∃ e, parseString m = .ok e) (hz : ¬ ZeroMonth m) (ht : ¬ TenDays s) (hn : ¬ PartNumber s)
    (hs : ∃ l u, Spans s l u) (k : ∃ l u, Spans t l u) :
    (isBefore m t = .ok true → isBefore s t = .ok true) ∧ (isAfter m t = .ok true → isAfter s t = .ok true) ∧
    (isBefore t m = .ok true → isBefore t s = .ok true) ∧ (isAfter t m = .ok true → isAfter t s = .ok true) := by
  obtain ⟨l, u, hs⟩ := hs
  obtain ⟨l2, u2, hk⟩ := k
  obtain ⟨l1, u1, hm, c1, c2⟩ := C97_longer h ha hz ht hn hs
  obtain ⟨d, pd, d1, d2⟩ := hs
  obtain ⟨e, pe, e1, e2⟩ := hm
  obtain ⟨g, pg, g1, g2⟩ := hk
  rw [(C34_strings pd pg ⟨d1, d2⟩ ⟨g1, g2⟩).2, (C34_strings pe pg ⟨e1, e2⟩ ⟨g1, g2⟩).2, (C34_strings pd pg ⟨d1, d2⟩ ⟨g1, g2⟩).1, (C34_strings pe pg ⟨e1, e2⟩ ⟨g1, g2⟩).1,
    (C34_strings pg pd ⟨g1, g2⟩ ⟨d1, d2⟩).2, (C34_strings pg pe ⟨g1, g2⟩ ⟨e1, e2⟩).2, (C34_strings pg pd ⟨g1, g2⟩ ⟨d1, d2⟩).1, (C34_strings pg pe ⟨g1, g2⟩ ⟨e1, e2⟩).1]
  simp
  omega

theorem vague_refl (s : Str) : Vaguer s s := by
  induction s with
  | nil => exact .nil
  | cons c s ih => exact .same c ih

theorem vague_after {m s : Str} (u : Str) (h : Vaguer m s) : Vaguer (u ++ m) (u ++ s) := by
  induction u with
  | nil => exact h
  | cons c u ih => exact .same c ih

/-- A day, a month, and an interval. -/
example : Vaguer (c! "1985-04-XX") (c! "1985-04-01") ∧ Vaguer (c! "198X-XX") (c! "1985-04") ∧ Vaguer (c! "156X-12-2X/15XX") (c! "1560-12-25/1570") :=
  ⟨.same _ (.same _ (.same _ (.same _ (.same _ (.same _ (.same _ (.same _ (.hidden 0 (by decide) (.hidden 1 (by decide) .nil))))))))),
    .same _ (.same _ (.same _ (.hidden 5 (by decide) (.same _ (.hidden 0 (by decide) (.hidden 4 (by decide) .nil)))))),
    .same _ (.same _ (.same _ (.hidden 0 (by decide) (.same _ (.same _ (.same _ (.same _ (.same _ (.hidden 5 (by decide) (.same _
      (.same _ (.same _ (.hidden 7 (by decide) (.hidden 0 (by decide) .nil))))))))))))))⟩

/-- The hypotheses hold for the interval. -/
example : ¬ ZeroMonth (c! "156X-12-2X/15XX") ∧ ¬ TenDays (c! "1560-12-25/1570") ∧ ¬ PartNumber (c! "1560-12-25/1570") := by
  refine ⟨?_, ?_, ?_⟩
  · rintro ⟨u, y, q, v, -, -, hq, e⟩
    have h0 : ∀ a b : Str, c! "156X-12-2X/15XX" ≠ a ++ '0' :: b := fun a b k => absurd (show '0' ∈ c! "156X-12-2X/15XX" by rw [k]; simp) (by decide)
    exact h0 (u ++ (y ++ '-' :: q)) ('X' :: v) (by rw [e]; simp)
  · exact fun h => absurd (ten_x h) (by decide)
  · rintro ⟨neg, n, k, -, -, -, e⟩
    have := congrArg List.length e
    cases neg <;> simp [signed, pad4_length, pad2_length] at this

example : ∃ l u l' u', Spans (c! "1560-12-25/1570") l u ∧ Spans (c! "156X-12-2X/15XX") l' u' ∧ l' < l ∧ u < u' :=
  ⟨_, _, _, _, ⟨_, rfl, rfl, rfl⟩, ⟨_, rfl, rfl, rfl⟩, by decide +kernel, by decide +kernel⟩

example : isBefore (c! "198X-XX") (c! "1990") = .ok true ∧ isBefore (c! "1985-04") (c! "1990") = .ok true := ⟨rfl, rfl⟩

/-- The span of a date with unspecified digits in its year or month. -/
theorem x_spans (hf : DayCount f) {x : XDate} (h : x.ok) (hn : x.neg = false) (hX : 'X' ∈ x.year ∨ 'X' ∈ x.mx) {y1 y2 : Int} {m1 m2 d1 d2 : Nat}
    (hr : x.Runs y1 m1 d1 y2 m2 d2) : Spans x.text (86400 * f y1 m1 d1) (86400 * f y2 m2 d2 + 86399) := by
  have hs : (⟨x, .none, .none, .none⟩ : Endpoint).shape := ⟨h, rfl, rfl, rfl, by cases x.tail <;> simp⟩
  have hS := SpanOf.date (f := f) _ hs _ _ _ _ _ _ hr
  have hT := timed_span (n := if x.dx ∈ [c! "00", c! "10", c! "20"] then 2 else 1) (s := x.text)
    (k := if x.dx ∈ [c! "00", c! "10", c! "20"] then c! "Unspecified Digit" else c! "Unspecified digit(s) from the right") hf hs rfl hS hr
  rw [endpoint_plain] at hS
  have hp := (C55_denotes hf _ _).2 (.unspecified x h hn hX _ _ hS)
  rw [endpoint_plain] at hT
  exact ⟨_, hp, (timed_lower hT).1, (timed_lower hT).2⟩

theorem xd {w : Str} (h : ∀ c ∈ w, isDX c = true) : ∀ c ∈ w, XDigit c := fun c hc => xdigit_iff.2 (h c hc)

/-- C97, the first exception is needed: in every year, each of the first nine months is before the
month with its second digit left out. -/
theorem C97_zero {n k : Nat} (hn : n < 10000) (h1 : 1 ≤ k) (h2 : k ≤ 9) :
    Vaguer (pad4 n ++ c! "-0X") (pad4 n ++ '-' :: pad2 k) ∧ isBefore (pad4 n ++ '-' :: pad2 k) (pad4 n ++ c! "-0X") = .ok true := by
  obtain ⟨f, hf⟩ : ∃ f : Int → Nat → Nat → Int, DayCount f := ⟨_, dayCount_unixDay⟩
  constructor
  · refine vague_after _ (.same _ ?_)
    show Vaguer _ [dig (k / 10 % 10), dig (k % 10)]
    rw [show k / 10 % 10 = 0 by omega]
    exact .same _ (.hidden _ (by omega) .nil)
  · have S1 : Spans (pad4 n ++ c! "-0X") (86400 * f n 10 1) (86400 * f n 12 31 + 86399) :=
      x_spans (x := ⟨false, pad4 n, .month (c! "0X")⟩) hf ⟨pad4_length n, dig_xdigit (pad4_all n), rfl, xd (by decide)⟩ rfl (.inr (show 'X' ∈ c! "0X" by decide))
        ⟨.digits false n hn, .zero, .absent, valid_first (by decide) (by decide), (whole_valid (n := n) (m := 12) (by decide) (by decide)).2⟩
    have hk : (⟨false, n, .month k⟩ : Date0).ok := ⟨hn, h1, by omega⟩
    have hT := timed_lower (timed_result (f := f) (x := ⟨false, n, .month k⟩) (t := (⟨false, n, .month k⟩ : Date0).text) (s := (⟨false, n, .month k⟩ : Date0).text)
      (k := c! "Date") (n := 0) (u := 0) (a := 0))
    have S2 : Spans (pad4 n ++ '-' :: pad2 k) (86400 * f n k 1) (86400 * f n k (monthLen n k) + 86399) :=
      ⟨_, (C55_denotes hf _ _).2 (.date ⟨false, n, .month k⟩ hk), hT.1, hT.2⟩
    refine (precedes_iff S2 S1).2 ?_
    have := day_lt hf (whole_valid (n := n) h1 (by omega)).2 (valid_first (y := n) (m := 10) (by decide) (by decide)) (.inr ⟨rfl, by omega⟩)
    omega

example : isBefore (c! "1985-04") (c! "1985-0X") = .ok true ∧ Vaguer (c! "1985-0X") (c! "1985-04") := ⟨rfl, (C97_zero (n := 1985) (k := 4) (by decide) (by decide) (by decide)).1⟩

/-- C97, the second exception is needed: in every year, the days of December of which the last
digit is unspecified end after the same days with the month left out. -/
theorem C97_ten {n : Nat} (hn : n < 10000) :
    Vaguer (pad4 n ++ c! "-XX-1X") (pad4 n ++ c! "-12-1X") ∧
    ∃ l u l' u', Spans (pad4 n ++ c! "-XX-1X") l' u' ∧ Spans (pad4 n ++ c! "-12-1X") l u ∧ u' < u := by
  obtain ⟨f, hf⟩ : ∃ f : Int → Nat → Nat → Int, DayCount f := ⟨_, dayCount_unixDay⟩
  refine ⟨vague_after _ (.same _ (.hidden 1 (by decide) (.hidden 2 (by decide) (vague_refl _)))), ?_⟩
  have V : ∀ {m d : Nat}, (m = 1 ∨ m = 12) → 1 ≤ d → d ≤ 31 → Valid n m d := by
    rintro m d (rfl | rfl) h1 h2 <;> exact ⟨by decide, by decide, h1, h2⟩
  have S1 : Spans (pad4 n ++ c! "-XX-1X") (86400 * f n 1 10) (86400 * f n 12 19 + 86399) :=
    x_spans (x := ⟨false, pad4 n, .day (c! "XX") (c! "1X")⟩) hf ⟨pad4_length n, dig_xdigit (pad4_all n), rfl, xd (by decide), rfl, xd (by decide)⟩ rfl (.inr (show 'X' ∈ c! "XX" by decide))
      ⟨.digits false n hn, .any, .tens1, V (.inl rfl) (by decide) (by decide), V (.inr rfl) (by decide) (by decide)⟩
  have hT := timed_lower (timed_months (f := f) (s := pad4 n ++ c! "-12-1X") (n := 1) (k := c! "Seasons") (y1 := n) (y2 := n) (m1 := 12) (m2 := 12))
  have S2 : Spans (pad4 n ++ c! "-12-1X") (86400 * f n 12 1) (86400 * f n 12 31 + 86399) :=
    ⟨_, (C55_denotes hf _ _).2 (.month false n 12 hn (by decide) (by decide) n rfl (.inl (by omega)) _ (.loose '1' 'X' (by decide))), hT.1, hT.2⟩
  refine ⟨_, _, _, _, S1, S2, ?_⟩
  have h1 := V (m := 12) (d := 19) (.inr rfl) (by decide) (by decide)
  have h2 := V (m := 12) (d := 31) (.inr rfl) (by decide) (by decide)
  have h3 := day_order hf h1 h2 (by unfold dayLe; omega)
  have h4 : f n 12 19 ≠ f n 12 31 := fun e => absurd (day_unique hf h1 h2 e).2.2 (by decide)
  omega

example : Vaguer (c! "1985-XX-1X") (c! "1985-12-1X") := (C97_ten (n := 1985) (by decide)).1

/-- C97, the third exception is needed: every winter, by its number, ends after its year. -/
theorem C97_winter {n : Nat} (hn : n < 9999) :
    Vaguer (pad4 n ++ c! "-XX") (pad4 n ++ c! "-24") ∧ ∃ l u l' u', Spans (pad4 n ++ c! "-XX") l' u' ∧ Spans (pad4 n ++ c! "-24") l u ∧ u' < u := by
  obtain ⟨f, hf⟩ : ∃ f : Int → Nat → Nat → Int, DayCount f := ⟨_, dayCount_unixDay⟩
  refine ⟨vague_after _ (.same _ (.hidden 2 (by decide) (.hidden 4 (by decide) .nil))), ?_⟩
  have S1 : Spans (pad4 n ++ c! "-XX") (86400 * f n 1 1) (86400 * f n 12 31 + 86399) :=
    x_spans (x := ⟨false, pad4 n, .month (c! "XX")⟩) hf ⟨pad4_length n, dig_xdigit (pad4_all n), rfl, xd (by decide)⟩ rfl (.inr (show 'X' ∈ c! "XX" by decide))
      ⟨.digits false n (by omega), .any, .absent, valid_first (by decide) (by decide), (whole_valid (n := n) (m := 12) (by decide) (by decide)).2⟩
  have hT := timed_lower (timed_months (f := f) (s := pad4 n ++ c! "-24") (n := 1) (k := c! "Seasons") (y1 := n) (y2 := Season.winter.lastYear n) (m1 := Season.winter.firstMonth)
    (m2 := Season.winter.lastMonth))
  have S2 := (⟨_, (C55_denotes hf _ _).2 (.season false n (by omega) .winter n rfl (.inl (by omega)) (fun _ => by omega)), hT.1, hT.2⟩ : Spans (pad4 n ++ c! "-24") _ _)
  refine ⟨_, _, _, _, S1, S2, ?_⟩
  have := day_lt hf (whole_valid (n := n) (m := 12) (by decide) (by decide)).2
    (last_valid (valid_first (y := Season.winter.lastYear n) (m := Season.winter.lastMonth) (by decide) (by decide))) (.inl (show (n : Int) < n + 1 by omega))
  have e : monthLen (n : Int) 12 = 31 := rfl
  rw [e] at this
  omega

example : Vaguer (c! "1985-XX") (c! "1985-24") := (C97_winter (n := 1985) (by decide)).1

end EDTF
