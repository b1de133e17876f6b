/-
Lemmas for C97: leaving out digits.
-/
import Verif.SpecVague
import Verif.PropsSame
import Verif.PropsSort
namespace EDTF
open Spec

variable {f : Int → Nat → Nat → Int}

/-! ### Leaving out digits -/

theorem vague_length {m s : Str} (h : Vaguer m s) : m.length = s.length := by
  induction h with
  | nil => rfl
  | same c _ ih => simp [ih]
  | hidden k hk _ ih => simp [ih]

theorem vague_cons {c : Char} {m s : Str} (h : Vaguer (c :: m) s) :
    ∃ c' s', s = c' :: s' ∧ Vaguer m s' ∧ (c' = c ∨ (c = 'X' ∧ ∃ k, k < 10 ∧ c' = dig k)) := by
  cases h with
  | same _ h => exact ⟨_, _, rfl, h, .inl rfl⟩
  | hidden k hk h => exact ⟨_, _, rfl, h, .inr ⟨rfl, k, hk, rfl⟩⟩

theorem vague_append {m n s : Str} (h : Vaguer (m ++ n) s) : ∃ a b, s = a ++ b ∧ Vaguer m a ∧ Vaguer n b := by
  induction m generalizing s with
  | nil => exact ⟨[], s, rfl, .nil, h⟩
  | cons c m ih =>
    cases h with
    | same _ h =>
      obtain ⟨a, b, rfl, h1, h2⟩ := ih h
      exact ⟨_ :: a, b, rfl, .same _ h1, h2⟩
    | hidden k hk h =>
      obtain ⟨a, b, rfl, h1, h2⟩ := ih h
      exact ⟨_ :: a, b, rfl, .hidden k hk h1, h2⟩

theorem vague_eq {m s : Str} (h : Vaguer m s) (hX : 'X' ∉ m) : s = m := by
  induction h with
  | nil => rfl
  | same c _ ih => rw [ih (fun k => hX (List.mem_cons_of_mem _ k))]
  | hidden k hk _ _ => simp at hX

theorem vague_keep {c : Char} {m s : Str} (hc : c ≠ 'X') (h : Vaguer (c :: m) s) : ∃ s', s = c :: s' ∧ Vaguer m s' := by
  obtain ⟨c', s', rfl, h', rfl | ⟨e, -⟩⟩ := vague_cons h
  · exact ⟨s', rfl, h'⟩
  · exact absurd e hc

/-- Texts of equal parts. -/
theorem vague_parts {m n a b : Str} (h : Vaguer (m ++ n) (a ++ b)) (hl : m.length = a.length) : Vaguer m a ∧ Vaguer n b := by
  obtain ⟨a', b', e, h1, h2⟩ := vague_append h
  obtain ⟨rfl, rfl⟩ := List.append_inj e (by rw [← vague_length h1, hl])
  exact ⟨h1, h2⟩

/-- The characters of the more exact text. -/
theorem vague_mem {m s : Str} (h : Vaguer m s) {c : Char} (hc : c ∈ s) : c ∈ m ∨ isDig c = true := by
  induction h with
  | nil => cases hc
  | same x _ ih =>
    rcases List.mem_cons.1 hc with rfl | hc
    · simp
    · exact (ih hc).imp (List.mem_cons_of_mem _) id
  | hidden k hk _ ih =>
    rcases List.mem_cons.1 hc with rfl | hc
    · exact .inr (isDig_dig_lt k hk)
    · exact (ih hc).imp (List.mem_cons_of_mem _) id

theorem vague_filter {m s : Str} (h : Vaguer m s) : Vaguer (m.filter (fun c => !isQ c)) (s.filter (fun c => !isQ c)) := by
  induction h with
  | nil => exact .nil
  | same c _ ih =>
    cases hq : isQ c
    · simpa [List.filter, hq] using Vaguer.same c ih
    · simpa [List.filter, hq] using ih
  | hidden k hk _ ih =>
    have : isQ (dig k) = false := (by decide : ∀ k, k < 10 → isQ (dig k) = false) k hk
    have hX : isQ 'X' = false := rfl
    simpa [List.filter, this, hX] using Vaguer.hidden k hk ih

/-- Without its qualifiers a date is its digits. -/
theorem filter_deco {q : Deco} (h : q.ok = true) {w : Str} (hw : ∀ c ∈ w, isQ c = false) : (q.text w).filter (fun c => !isQ c) = w := by
  have hw' : w.filter (fun c => !isQ c) = w := List.filter_eq_self.2 (fun c hc => by rw [hw c hc]; rfl)
  cases q with
  | none => exact hw'
  | left q => rw [deco_ok_left] at h; simp [Deco.text, h, hw']
  | right q => rw [deco_ok_right] at h; simp [Deco.text, h, hw']

theorem xdigit_noQ {w : Str} (h : ∀ c ∈ w, XDigit c) : ∀ c ∈ w, isQ c = false := by
  intro c hc
  rcases h c hc with rfl | ⟨k, hk, rfl⟩
  · rfl
  · exact (by decide : ∀ k, k < 10 → isQ (dig k) = false) k hk

theorem filter_endpoint {e : Endpoint} (h : e.shape) : e.text.filter (fun c => !isQ c) = e.date.text := by
  obtain ⟨⟨neg, y, t⟩, qy, qm, qd⟩ := e
  obtain ⟨⟨-, hy, ht⟩, h1, h2, h3, -⟩ := h
  simp only at hy ht h1 h2 h3
  have hY : ∀ c ∈ (if neg then '-' :: y else y), isQ c = false := by
    intro c hc
    cases neg
    · exact xdigit_noQ hy c hc
    · rcases List.mem_cons.1 hc with rfl | hc
      · rfl
      · exact xdigit_noQ hy c hc
  have hd : isQ '-' = false := rfl
  rw [xtext]
  unfold Endpoint.text
  simp only
  rw [List.filter_append, filter_deco h1 hY]
  congr 1
  cases t with
  | none => rfl
  | month m => simp [List.filter, hd, filter_deco h2 (xdigit_noQ ht.2)]
  | day m d => simp [List.filter, hd, filter_deco h2 (xdigit_noQ ht.2.1), filter_deco h3 (xdigit_noQ ht.2.2.2)]

/-! ### The parts of a date -/

theorem year_head {y : Str} (hl : y.length = 4) (h : ∀ c ∈ y, XDigit c) : ∃ c t, y = c :: t ∧ c ≠ '-' ∧ isDX c = true := by
  obtain ⟨a, b, c, d, rfl⟩ := four_chars hl
  refine ⟨a, _, rfl, ?_, xall h a (by simp)⟩
  rintro rfl
  exact absurd (xall h '-' (by simp)) (by decide)

/-- Leaving out digits of a date leaves out digits of its year, its month, and its day. -/
theorem vague_date {x x' : XDate} (h : x.ok) (h' : x'.ok) (k : Vaguer x.text x'.text) :
    x.neg = x'.neg ∧ Vaguer x.year x'.year ∧ Vaguer x.mx x'.mx ∧ Vaguer x.dx x'.dx := by
  obtain ⟨neg, y, t⟩ := x
  obtain ⟨neg', y', t'⟩ := x'
  obtain ⟨hl, hy, ht⟩ := h
  obtain ⟨hl', hy', ht'⟩ := h'
  simp only at hl hy ht hl' hy' ht'
  rw [xtext, xtext] at k
  simp only at k
  have en : neg = neg' := by
    obtain ⟨c, r, rfl, hc, hcx⟩ := year_head hl hy
    obtain ⟨c', r', rfl, hc', -⟩ := year_head hl' hy'
    cases neg <;> cases neg' <;> try rfl
    · obtain ⟨a, b, e, -, e2⟩ := vague_cons k
      simp only [sgn, if_true, List.cons_append, List.cons.injEq] at e
      obtain ⟨rfl, -⟩ := e
      rcases e2 with rfl | ⟨-, j, hj, e2⟩
      · exact absurd rfl hc
      · exact absurd e2.symm (dig_ne hj (by decide))
    · obtain ⟨a, e, -⟩ := vague_keep (by decide) k
      simp only [sgn, Bool.false_eq_true, if_false, List.cons_append, List.cons.injEq] at e
      exact absurd e.1 hc'
  subst en
  obtain ⟨k1, k2⟩ := vague_parts k (by cases neg <;> simp [sgn, hl, hl'])
  have ky : Vaguer y y' := by
    cases neg
    · exact k1
    · obtain ⟨s, e, k1⟩ := vague_keep (by decide) k1
      cases e
      exact k1
  refine ⟨rfl, ky, ?_⟩
  have len := vague_length k2
  cases t with
  | none =>
    cases t' with
    | none => exact ⟨.nil, .nil⟩
    | month m => simp at len
    | day m d => simp at len
  | month m =>
    cases t' with
    | none => simp at len
    | month m' =>
      obtain ⟨s, e, k2⟩ := vague_keep (by decide) k2
      cases e
      exact ⟨k2, .nil⟩
    | day m' d' =>
      simp only [List.length_cons, List.length_append] at len
      have := ht.1
      have := ht'.1
      omega
  | day m d =>
    cases t' with
    | none => simp at len
    | month m' =>
      simp only [List.length_cons, List.length_append] at len
      have := ht.1
      have := ht'.1
      omega
    | day m' d' =>
      obtain ⟨s, e, k2⟩ := vague_keep (by decide) k2
      cases e
      obtain ⟨k3, k4⟩ := vague_parts k2 (by rw [ht.1, ht'.1])
      obtain ⟨s, e, k4⟩ := vague_keep (by decide) k4
      cases e
      exact ⟨k3, k4⟩

/-! ### What the parts stand for -/

theorem place_inv {c : Char} {k1 k2 : Nat} (h : Place c k1 k2) : (∃ k, k < 10 ∧ c = dig k ∧ k1 = k ∧ k2 = k) ∨ (c = 'X' ∧ k1 = 0 ∧ k2 = 9) := by
  cases h with
  | digit k h => exact .inl ⟨_, h, rfl, rfl, rfl⟩
  | any => exact .inr ⟨rfl, rfl, rfl⟩

theorem dig_not_X {k : Nat} (h : k < 10) : dig k ≠ 'X' := dig_ne h (by decide)

theorem place_vague {c c' : Char} {a b a' b' : Nat} (h : Place c a b) (h' : Place c' a' b') (k : c' = c ∨ (c = 'X' ∧ ∃ k, k < 10 ∧ c' = dig k)) :
    a ≤ a' ∧ b' ≤ b := by
  rcases place_inv h with ⟨i, hi, rfl, rfl, rfl⟩ | ⟨rfl, rfl, rfl⟩
  · rcases k with rfl | ⟨e, -⟩
    · rcases place_inv h' with ⟨j, hj, e, rfl, rfl⟩ | ⟨e, -⟩
      · have := dig_inj hi hj e; omega
      · exact absurd e (dig_not_X hi)
    · exact absurd e (dig_not_X hi)
  · rcases place_inv h' with ⟨j, hj, e, rfl, rfl⟩ | ⟨e, rfl, rfl⟩ <;> omega

theorem pad4_places {n : Nat} (h : n < 10000) : ∃ a b c d, a < 10 ∧ b < 10 ∧ c < 10 ∧ d < 10 ∧ pad4 n = [dig a, dig b, dig c, dig d] ∧ n = 1000 * a + 100 * b + 10 * c + d :=
  ⟨n / 1000 % 10, n / 100 % 10, n / 10 % 10, n % 10, by omega, by omega, by omega, by omega, rfl, by omega⟩

theorem year_vague {neg : Bool} {w w' : Str} {y1 y2 z1 z2 : Int} (h : YearReads neg w y1 y2) (h' : YearReads neg w' z1 z2) (k : Vaguer w w') :
    y1 ≤ z1 ∧ z2 ≤ y2 := by
  cases h with
  | digits _ n hn =>
    have e := vague_eq k (pad4_noX n)
    subst e
    generalize e : pad4 n = w at h'
    cases h' with
    | digits _ n' hn' => rw [pad4_inj hn hn' e]; exact ⟨Int.le_refl _, Int.le_refl _⟩
    | unspecified a ha hb hc => exact absurd (by rw [e]; simp) (pad4_noX n)
  | unspecified a ha hb hc =>
    obtain ⟨c1, w1, rfl, k1, j1⟩ := vague_cons k
    obtain ⟨c2, w2, rfl, k2, j2⟩ := vague_cons k1
    obtain ⟨c3, w3, rfl, k3, j3⟩ := vague_cons k2
    obtain ⟨c4, w4, rfl, k4, j4⟩ := vague_cons k3
    cases k4
    generalize e : [c1, c2, c3, c4] = w at h'
    generalize hg : false = g at h'
    cases h' with
    | digits _ n hn =>
      subst hg
      obtain ⟨a', b', c', d', l1, l2, l3, l4, e', en⟩ := pad4_places hn
      rw [e'] at e
      simp only [List.cons.injEq, and_true] at e
      obtain ⟨rfl, rfl, rfl, rfl⟩ := e
      have q1 := place_vague (.digit a ha) (.digit a' l1) j1
      have q2 := place_vague hb (.digit b' l2) j2
      have q3 := place_vague hc (.digit c' l3) j3
      simp only [Bool.false_eq_true, if_false]
      omega
    | unspecified a' ha' hb' hc' =>
      simp only [List.cons.injEq, and_true] at e
      obtain ⟨rfl, rfl, rfl, -⟩ := e
      have q1 := place_vague (.digit a ha) (.digit a' ha') j1
      have q2 := place_vague hb hb' j2
      have q3 := place_vague hc hc' j3
      omega

theorem month_inv {w : Str} {a b : Nat} (h : MonthReads w a b) :
    (w = [] ∧ a = 1 ∧ b = 12) ∨ (∃ m, 1 ≤ m ∧ m ≤ 12 ∧ w = pad2 m ∧ a = m ∧ b = m) ∨ (w = c! "XX" ∧ a = 1 ∧ b = 12) ∨
    (w = c! "0X" ∧ a = 10 ∧ b = 12) ∨ (w = c! "1X" ∧ a = 10 ∧ b = 12) := by
  cases h with
  | absent => exact .inl ⟨rfl, rfl, rfl⟩
  | digits m h1 h2 => exact .inr (.inl ⟨_, h1, h2, rfl, rfl, rfl⟩)
  | any => exact .inr (.inr (.inl ⟨rfl, rfl, rfl⟩))
  | zero => exact .inr (.inr (.inr (.inl ⟨rfl, rfl, rfl⟩)))
  | one => exact .inr (.inr (.inr (.inr ⟨rfl, rfl, rfl⟩)))

theorem month_bounds {w : Str} {a b : Nat} (h : MonthReads w a b) : 1 ≤ a ∧ a ≤ b ∧ b ≤ 12 := by
  rcases month_inv h with ⟨-, h⟩ | ⟨m, h⟩ | ⟨-, h⟩ | ⟨-, h⟩ | ⟨-, h⟩ <;> omega

theorem pad2_not {m : Nat} {w : Str} (h : 'X' ∈ w) : pad2 m ≠ w := fun e => pad2_noX m (e ▸ h)

theorem month_digits {m : Nat} (h1 : 1 ≤ m) (h2 : m ≤ 12) {a b : Nat} (h : MonthReads (pad2 m) a b) : a = m ∧ b = m := by
  rcases month_inv h with ⟨e, -⟩ | ⟨m', l1, l2, e, rfl, rfl⟩ | ⟨e, -⟩ | ⟨e, -⟩ | ⟨e, -⟩
  · cases e
  · have := pad2_inj (by omega) (by omega) e; omega
  all_goals exact absurd e (pad2_not (by decide))

theorem month_vague {w w' : Str} {a b a' b' : Nat} (h : MonthReads w a b) (h' : MonthReads w' a' b') (k : Vaguer w w') (hz : w ≠ c! "0X") :
    a ≤ a' ∧ b' ≤ b := by
  have hb := month_bounds h'
  rcases month_inv h with ⟨rfl, h⟩ | ⟨m, k1, k2, rfl, rfl, rfl⟩ | ⟨-, h⟩ | ⟨e, -⟩ | ⟨rfl, h⟩
  · omega
  · have e := vague_eq k (pad2_noX _)
    subst e
    have := month_digits k1 k2 h'
    omega
  · omega
  · exact absurd e hz
  · obtain ⟨w1, rfl, k'⟩ := vague_keep (by decide) k
    suffices 10 ≤ a' by omega
    rcases month_inv h' with ⟨e, -⟩ | ⟨m, l1, l2, e, rfl, rfl⟩ | ⟨e, -⟩ | ⟨e, -⟩ | ⟨e, l1, l2⟩
    · cases e
    · have := congrArg List.head? e
      exact (by decide : ∀ m, m ≤ 12 → some '1' = (pad2 m).head? → 10 ≤ m) _ l2 this
    · exact absurd (List.cons.inj e).1 (by decide)
    · exact absurd (List.cons.inj e).1 (by decide)
    · omega

theorem day_inv {l1 l2 : Nat} {w : Str} {a b : Nat} (h : DayReads l1 l2 w a b) :
    (w = [] ∧ a = 1 ∧ b = l2) ∨ (∃ d, 1 ≤ d ∧ d ≤ 31 ∧ w = pad2 d ∧ a = d ∧ b = d) ∨ (w = c! "00" ∧ a = l1 ∧ b = l2) ∨ (w = c! "XX" ∧ a = 1 ∧ b = l2) ∨
    (w = c! "1X" ∧ a = 10 ∧ b = 19) ∨ (w = c! "2X" ∧ a = 20 ∧ b = 29) ∨ (w = c! "3X" ∧ a = 30 ∧ b = l2) := by
  cases h with
  | absent => exact .inl ⟨rfl, rfl, rfl⟩
  | digits m h1 h2 => exact .inr (.inl ⟨_, h1, h2, rfl, rfl, rfl⟩)
  | zero => exact .inr (.inr (.inl ⟨rfl, rfl, rfl⟩))
  | any => exact .inr (.inr (.inr (.inl ⟨rfl, rfl, rfl⟩)))
  | tens1 => exact .inr (.inr (.inr (.inr (.inl ⟨rfl, rfl, rfl⟩))))
  | tens2 => exact .inr (.inr (.inr (.inr (.inr (.inl ⟨rfl, rfl, rfl⟩)))))
  | tens3 => exact .inr (.inr (.inr (.inr (.inr (.inr ⟨rfl, rfl, rfl⟩)))))

theorem day_digits {l1 l2 m : Nat} (hm : m < 100) {a b : Nat} (h : DayReads l1 l2 (pad2 m) a b) : (1 ≤ m ∧ a = m ∧ b = m) ∨ (m = 0 ∧ a = l1 ∧ b = l2) := by
  rcases day_inv h with ⟨e, -⟩ | ⟨m', k1, k2, e, rfl, rfl⟩ | ⟨e, h⟩ | ⟨e, -⟩ | ⟨e, -⟩ | ⟨e, -⟩ | ⟨e, -⟩
  · cases e
  · have := pad2_inj (by omega) (by omega) e; omega
  · have := pad2_inj (by omega) (by decide) (e.trans (by decide : c! "00" = pad2 0)); omega
  all_goals exact absurd e (pad2_not (by decide))

theorem day_tens {l1 l2 j : Nat} (hj : j < 10) {a b : Nat} (h : DayReads l1 l2 [dig j, 'X'] a b) : a = 10 * j ∧ (b = 10 * j + 9 ∨ b = l2 ∧ j = 3) := by
  rcases day_inv h with ⟨e, -⟩ | ⟨m', k1, k2, e, rfl, rfl⟩ | ⟨e, h⟩ | ⟨e, -⟩ | ⟨e, h⟩ | ⟨e, h⟩ | ⟨e, h⟩
  · cases e
  · exact absurd e.symm (pad2_not (by simp))
  · revert e; simp
  · exact absurd (List.cons.inj e).1 (dig_not_X hj)
  · have : j = 1 := dig_inj hj (by decide) (List.cons.inj e).1; omega
  · have : j = 2 := dig_inj hj (by decide) (List.cons.inj e).1; omega
  · have : j = 3 := dig_inj hj (by decide) (List.cons.inj e).1; omega

/-- A day among ten: "1X". -/
theorem ten_vague {l1 l2 j : Nat} (hj : j < 10) (h1 : 1 ≤ j) {w' : Str} {a' b' : Nat} (h' : DayReads l1 l2 w' a' b') (k : Vaguer [dig j, 'X'] w') :
    10 * j ≤ a' ∧ (b' ≤ 10 * j + 9 ∨ b' = l2 ∧ j = 3) := by
  obtain ⟨w1, rfl, k'⟩ := vague_keep (dig_not_X hj) k
  obtain ⟨c2, w2, rfl, k'', q⟩ := vague_cons k'
  cases k''
  rcases q with rfl | ⟨-, i, hi, rfl⟩
  · have := day_tens hj h'; omega
  · have e : [dig j, dig i] = pad2 (10 * j + i) := by
      show _ = [dig ((10 * j + i) / 10 % 10), dig ((10 * j + i) % 10)]
      rw [show (10 * j + i) / 10 % 10 = j by omega, show (10 * j + i) % 10 = i by omega]
    rw [e] at h'
    have := day_digits (by omega) h'
    omega

/-! ### The first and the last day -/

/-- With digits left out, the time of a date is no shorter. -/
theorem runs_vague {x x' : XDate} (h : x.ok) (h' : x'.ok) (k : Vaguer x.text x'.text) (hz : x.mx ≠ c! "0X") {y1 y2 z1 z2 : Int} {m1 m2 d1 d2 n1 n2 c1 c2 : Nat}
    (hr : x.Runs y1 m1 d1 y2 m2 d2) (hr' : x'.Runs z1 n1 c1 z2 n2 c2) : dayLe y1 m1 d1 z1 n1 c1 ∧ dayLe z2 n2 c2 y2 m2 d2 := by
  obtain ⟨en, ky, km, kd⟩ := vague_date h h' k
  obtain ⟨hy, hm, hd, V1, V2⟩ := hr
  obtain ⟨hy', hm', hd', V1', V2'⟩ := hr'
  rw [← en] at hy'
  obtain ⟨a1, a2⟩ := year_vague hy hy' ky
  obtain ⟨b1, b2⟩ := month_vague hm hm' km hz
  obtain ⟨-, -, v1, v1'⟩ := V1
  obtain ⟨-, -, v2, v2'⟩ := V2
  obtain ⟨-, -, w1, w1'⟩ := V1'
  obtain ⟨-, -, w2, w2'⟩ := V2'
  generalize x.dx = p at hd kd
  generalize x'.dx = p' at hd' kd
  have first : y1 = z1 → m1 = n1 → d1 ≤ c1 := by
    rintro rfl rfl
    rcases day_inv hd with ⟨-, h⟩ | ⟨d, e1, e2, rfl, rfl, rfl⟩ | ⟨rfl, h⟩ | ⟨-, h⟩ | ⟨rfl, h⟩ | ⟨rfl, h⟩ | ⟨rfl, h⟩
    · omega
    · have e := vague_eq kd (pad2_noX _)
      subst e
      have := day_digits (by omega) hd'
      omega
    · have e := vague_eq kd (by decide)
      subst e
      have := day_digits (m := 0) (by decide) hd'
      omega
    · omega
    · have := ten_vague (j := 1) (by decide) (by decide) hd' kd; omega
    · have := ten_vague (j := 2) (by decide) (by decide) hd' kd; omega
    · have := ten_vague (j := 3) (by decide) (by decide) hd' kd; omega
  have last : y2 = z2 → m2 = n2 → c2 ≤ d2 := by
    rintro rfl rfl
    rcases day_inv hd with ⟨-, h⟩ | ⟨d, e1, e2, rfl, rfl, rfl⟩ | ⟨rfl, h⟩ | ⟨-, h⟩ | ⟨rfl, h⟩ | ⟨rfl, h⟩ | ⟨rfl, h⟩
    · omega
    · have e := vague_eq kd (pad2_noX _)
      subst e
      have := day_digits (by omega) hd'
      omega
    · omega
    · omega
    · have := ten_vague (j := 1) (by decide) (by decide) hd' kd; omega
    · have := ten_vague (j := 2) (by decide) (by decide) hd' kd; omega
    · omega
  unfold dayLe
  constructor
  · by_cases e1 : y1 = z1
    · by_cases e2 : m1 = n1
      · have := first e1 e2; omega
      · omega
    · omega
  · by_cases e1 : y2 = z2
    · by_cases e2 : m2 = n2
      · have := last e1 e2; omega
      · omega
    · omega

/-! ### Dates alone -/

/-- Digits, hyphens, and unspecified digits. -/
def XChars (s : Str) : Prop := ∀ c ∈ s, c ∈ c! "0123456789-Xx"

/-- What a text of such characters stands for: the first and the last day of a date, or the whole month. -/
inductive Reading (f : Int → Nat → Nat → Int) : Str → EDTFDate → Prop
  | runs (e : Endpoint) (h : e.shape) {d : EDTFDate} {y1 y2 : Int} {m1 m2 d1 d2 : Nat} (hr : e.date.Runs y1 m1 d1 y2 m2 d2)
      (ht : Timed d (86400 * f y1 m1 d1) (86400 * f y2 m2 d2 + 86399)) : Reading f e.text d
  | month (n m : Nat) (hn : n < 10000) (h1 : 1 ≤ m) (h2 : m ≤ 12) (a b : Char) (h : LooseDay a b) {d : EDTFDate}
      (ht : Timed d (86400 * f n m 1) (86400 * f n m (monthLen n m) + 86399)) : Reading f (pad4 n ++ '-' :: (pad2 m ++ ['-', a, b])) d

theorem not_bare {s : Str} {c : Char} (h : XChars s) (hc : c ∉ c! "0123456789-Xx") : c ∉ s := fun k => hc (h c k)

theorem bare_reading (hf : DayCount f) {s : Str} {d : EDTFDate} (h : Denotes f s d) (hb : XChars s) (h0 : s ≠ []) (hn : ¬ PartNumber s) : Reading f s d := by
  have no : ∀ {c : Char}, c ∈ s → c ∉ c! "0123456789-Xx" → False := fun hm hc => not_bare hb hc hm
  have noq : ∀ {q : Char}, q ∈ c! "?~%" → q ∈ s → False := fun hq hm => no hm ((by decide : ∀ c ∈ c! "?~%", c ∉ c! "0123456789-Xx") _ hq)
  cases h with
  | unknown => exact absurd rfl h0
  | opened => exact (no (c := '.') (by decide) (by decide)).elim
  | date x h =>
    have hr := date_runs h
    have ht : Timed (x.result f x.text x.text 0 (c! "Date") 0 0) (86400 * f x.value x.first.1 x.first.2) (86400 * f x.value x.last.1 x.last.2 + 86399) := timed_result
    exact (dateE_text x) ▸ Reading.runs (dateE x) (dateE_ok x).1 hr ((dateE_text x).symm ▸ ht)
  | time neg y m d hh mi ss z => exact (no (c := 'T') (by rw [clockText_eq]; simp) (by decide)).elim
  | interval a b => exact (no (c := '/') (by simp) (by decide)).elim
  | startless => exact (no (c := '/') (by simp) (by decide)).elim
  | endless => exact (no (c := '/') (by simp) (by decide)).elim
  | qualifiedYear neg n h q hq => exact (noq hq (by simp)).elim
  | group e h hn hX hl he S E hs =>
    generalize ht : e.text = t at hs
    cases hs with
    | date e' h' y1 m1 d1 y2 m2 d2 hr => exact ht ▸ .runs e' h' hr (timed_span hf h' rfl (.date e' h' y1 m1 d1 y2 m2 d2 hr) hr)
  | individual e h hn hX hr hl S E hs =>
    generalize ht : e.text = t at hs
    cases hs with
    | date e' h' y1 m1 d1 y2 m2 d2 hr => exact ht ▸ .runs e' h' hr (timed_span hf h' rfl (.date e' h' y1 m1 d1 y2 m2 d2 hr) hr)
  | unspecified x h hn hX S E hs =>
    generalize ht : x.text = t at hs
    cases hs with
    | date e' h' y1 m1 d1 y2 m2 d2 hr => exact ht ▸ .runs e' h' hr (timed_span hf h' rfl (.date e' h' y1 m1 d1 y2 m2 d2 hr) hr)
  | month neg n m hn' h1 h2 y hv hy t ht =>
    cases ht with
    | qualifier _ q hq => exact (noq hq (by simp)).elim
    | dayQualifier _ d d1 d2 q hq => exact (noq hq (by simp)).elim
    | ended => exact (no (c := '/') (by simp) (by decide)).elim
    | dayEnded => exact (no (c := '/') (by simp) (by decide)).elim
    | loose a b h =>
      have e : y = (n : Int) := by simpa using hv
      subst e
      exact .month n m hn' h1 h2 a b h timed_months
  | season neg n hn' z => exact absurd ⟨neg, n, z.code, hn', by cases z <;> decide, by cases z <;> decide, rfl⟩ hn
  | seasonName => exact (no (c := ',') (by simp) (by decide)).elim
  | letter => exact (no (c := 'Y') (by simp) (by decide)).elim
  | exponential yc ec hy he =>
    exact (no (c := yc) (by simp) ((by decide : ∀ c ∈ c! "Yy", c ∉ c! "0123456789-Xx") _ hy)).elim
  | significant => exact (no (c := 'S') (by simp) (by decide)).elim
  | grouping n hn' g hg =>
    refine absurd ⟨false, n, g.code, hn', ?_, ?_, rfl⟩ hn
    · cases g with
      | north z => cases z <;> decide
      | south z => cases z <;> decide
      | _ k => show 12 < _ + _; omega
    · cases g with
      | north z => cases z <;> decide
      | south z => cases z <;> decide
      | _ k => show _ + (k : Nat) < 100; omega
  | set o c hb' =>
    have : o ∉ c! "0123456789-Xx" := by rcases hb'.1 with rfl | rfl <;> decide
    exact (no (c := o) (by simp) this).elim

/-- An accepted text with an unspecified digit is an interval, or consists of such characters. -/
theorem x_bare {s : Str} (h : Accepted s) (hX : 'X' ∈ s) : '/' ∈ s ∨ XChars s := by
  have dg : ∀ {t : Str}, t.all isDig = true → ∀ c ∈ t, c ∈ c! "0123456789-Xx" := by
    intro t ht c hc
    obtain ⟨k, hk, rfl⟩ := (isDig_iff _).1 (List.all_eq_true.1 ht c hc)
    exact (by decide : ∀ k, k < 10 → dig k ∈ c! "0123456789-Xx") k hk
  have ql : ∀ {q : Char}, q ∈ c! "?~%" → 'X' ≠ q := fun hq => (by decide : ∀ c ∈ c! "?~%", 'X' ≠ c) _ hq
  rcases accepted_marked h with k | k | k
  · exact absurd hX (k 'X' (by decide))
  · exact .inl k
  · right
    cases k with
    | year neg n h q hq =>
      have := (unm_signed (b := neg) (unm_pad n).1) 'X' (by decide)
      simp [this, ql hq] at hX
    | single e he hn hq hx =>
      obtain ⟨x, qy, qm, qd⟩ := e
      obtain ⟨q1, q2, q3⟩ := hx hX
      simp only at q1 q2 q3
      subst q1 q2 q3
      rw [endpoint_plain]
      intro c hc
      by_cases hd : c = '-'
      · rw [hd]; decide
      · cases hi : isDX c with
        | false => exact absurd hc (xchars he.1.1 hi hd)
        | true =>
          rcases xdigit_iff.2 hi with rfl | ⟨k, hk, rfl⟩
          · decide
          · exact (by decide : ∀ k, k < 10 → dig k ∈ c! "0123456789-Xx") k hk
    | month neg n m hn h1 h2 hy q hq =>
      have := (unm_signed (b := neg) (unm_pad n).1) 'X' (by decide)
      simp [this, ql hq, pad2_noX] at hX
    | day neg n m hn h1 h2 hy d d1 d2 q hq =>
      have := (unm_signed (b := neg) (unm_pad n).1) 'X' (by decide)
      simp [this, ql hq, pad2_noX] at hX
    | loose n m hn h1 h2 a b hl =>
      have sub : ∀ c ∈ c! "0123456789Xx", c ∈ c! "0123456789-Xx" := by decide
      have hab := loose_chars hl
      intro c hc
      rcases List.mem_append.1 hc with hc | hc
      · exact dg (pad4_all n) c hc
      rcases List.mem_cons.1 hc with rfl | hc
      · decide
      rcases List.mem_append.1 hc with hc | hc
      · exact dg (pad2_all m) c hc
      rcases List.mem_cons.1 hc with rfl | hc
      · decide
      rcases List.mem_cons.1 hc with rfl | hc
      · exact sub _ hab.1
      rcases List.mem_cons.1 hc with rfl | hc
      · exact sub _ hab.2
      · cases hc

end EDTF
