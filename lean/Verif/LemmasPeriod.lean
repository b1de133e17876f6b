/-
Lemmas for C98: texts moved by 400 years.
-/
import Verif.SpecPeriod
import Verif.PropsVague
import Verif.PropsCase
namespace EDTF
open Spec

variable {f : Int → Nat → Nat → Int}

/-! ### The calendar -/

theorem leap_move (y k : Int) : Leap (y + 400 * k) ↔ Leap y := by unfold Leap; omega

theorem monthLen_move (y k : Int) (m : Nat) : monthLen (y + 400 * k) m = monthLen y m := by
  unfold monthLen; simp only [leap_move]

theorem valid_move {y : Int} {m d : Nat} (k : Int) (V : Valid y m d) : Valid (y + 400 * k) m d := by
  unfold Valid at *; rw [monthLen_move]; exact V

theorem day_move (hf : DayCount f) {y : Int} {m d : Nat} (k : Int) (V : Valid y m d) : f (y + 400 * k) m d = f y m d + 146097 * k := by
  rw [dayCount_eq hf V, dayCount_eq hf (valid_move k V)]
  have e : isLeap (y + 400 * k) = isLeap y := by rw [isLeap_eq, isLeap_eq]; simp only [leap_move]
  unfold unixDay daysBefore daysBeforeYear
  rw [e]
  omega

/-! ### Texts -/

theorem lead_unique {p p' x x' : Str} {c c' : Char} (hp : ∀ a ∈ p, isDX a = false) (hp' : ∀ a ∈ p', isDX a = false) (hc : isDX c = true) (hc' : isDX c' = true)
    (h : p ++ c :: x = p' ++ c' :: x') : p = p' ∧ c = c' ∧ x = x' := by
  induction p generalizing p' with
  | nil =>
    cases p' with
    | nil => simpa using h
    | cons a p' =>
      simp only [List.nil_append, List.cons_append, List.cons.injEq] at h
      have := hp' a (by simp)
      rw [← h.1, hc] at this; cases this
  | cons a p ih =>
    cases p' with
    | nil =>
      simp only [List.nil_append, List.cons_append, List.cons.injEq] at h
      have := hp a (by simp)
      rw [h.1, hc'] at this; cases this
    | cons a' p' =>
      simp only [List.cons_append, List.cons.injEq] at h
      obtain ⟨e1, e2⟩ := ih (fun b hb => hp b (by simp [hb])) (fun b hb => hp' b (by simp [hb])) h.2
      exact ⟨by rw [h.1, e1], e2⟩

/-- What may stand before the year. -/
def heads : List Str := [[], c! "-", c! "?", c! "~", c! "%", c! "?-", c! "~-", c! "%-"]

theorem heads_noDX {p : Str} (h : p ∈ heads) : ∀ a ∈ p, isDX a = false := (by decide : ∀ p ∈ heads, ∀ a ∈ p, isDX a = false) p h

theorem sign_heads (neg : Bool) : signed neg [] ∈ heads := by cases neg <;> decide

theorem signed_eq (neg : Bool) (t : Str) : signed neg t = signed neg [] ++ t := by cases neg <;> rfl

theorem sign_mem (neg : Bool) : '-' ∈ signed neg [] ↔ neg = true := by cases neg <;> decide

theorem pad4_split (a j : Nat) (hj : j < 100) : pad4 (100 * a + j) = pad2 a ++ pad2 j := by
  unfold pad4 pad2
  simp only [List.cons_append, List.nil_append, List.cons.injEq, and_true]
  refine ⟨?_, ?_, ?_, ?_⟩ <;> congr 1 <;> omega

theorem century_split {p : Str} (hp : p ∈ heads) {a : Nat} (ha : a < 100) {r : Str} {neg : Bool} {n : Nat} (hn : n < 10000) {w : Str}
    (e : signed neg (pad4 n) ++ w = p ++ (pad2 a ++ r)) : ∃ j, j < 100 ∧ n = 100 * a + j ∧ p = signed neg [] ∧ r = pad2 j ++ w := by
  obtain ⟨b, j, hb, hj, rfl⟩ : ∃ b j, b < 100 ∧ j < 100 ∧ n = 100 * b + j := ⟨n / 100, n % 100, by omega, by omega, by omega⟩
  rw [pad4_split b j hj, signed_eq, List.append_assoc, List.append_assoc] at e
  have e' : signed neg [] ++ dig (b / 10 % 10) :: (dig (b % 10) :: (pad2 j ++ w)) = p ++ dig (a / 10 % 10) :: (dig (a % 10) :: r) := e
  obtain ⟨e1, e2, e3⟩ := lead_unique (heads_noDX (sign_heads neg)) (heads_noDX hp) (by simp [isDX]) (by simp [isDX]) e'
  simp only [List.cons.injEq] at e3
  have : pad2 b = pad2 a := by unfold pad2; rw [e2, e3.1]
  exact ⟨j, hj, by rw [pad2_inj hb ha this], e1.symm, e3.2.symm⟩

/-- An endpoint with another year. -/
def withYear (e : Endpoint) (y : Str) : Endpoint := ⟨⟨e.date.neg, y, e.date.tail⟩, e.qy, e.qm, e.qd⟩

theorem endpoint_lead {e : Endpoint} (h : e.shape) : ∃ p r, (∀ c ∈ p, isDX c = false) ∧ ('-' ∈ p ↔ e.date.neg = true) ∧ ∀ y, (withYear e y).text = p ++ (y ++ r) := by
  obtain ⟨⟨neg, y, t⟩, qy, qm, qd⟩ := e
  obtain ⟨-, h1, -⟩ := h
  simp only at h1
  generalize hr : (match t with | .none => [] | .month m => '-' :: qm.text m | .day m d => '-' :: (qm.text m ++ '-' :: qd.text d) : Str) = r
  have key : ∀ y', (withYear ⟨⟨neg, y, t⟩, qy, qm, qd⟩ y').text = qy.text (if neg then '-' :: y' else y') ++ r := by
    intro y'; subst hr; rfl
  cases qy with
  | none =>
    refine ⟨signed neg [], r, heads_noDX (sign_heads neg), sign_mem neg, fun y' => ?_⟩
    rw [key]; cases neg <;> rfl
  | left q =>
    rw [deco_ok_left] at h1
    have : q = '?' ∨ q = '~' ∨ q = '%' := by simpa [isQ, or_assoc] using h1
    refine ⟨q :: signed neg [], r, ?_, ?_, fun y' => ?_⟩
    · intro c hc
      rcases List.mem_cons.1 hc with rfl | hc
      · rcases this with rfl | rfl | rfl <;> decide
      · exact heads_noDX (sign_heads neg) c hc
    · rcases this with rfl | rfl | rfl <;> cases neg <;> simp [signed]
    · rw [key]; cases neg <;> rfl
  | right q =>
    refine ⟨signed neg [], q :: r, heads_noDX (sign_heads neg), sign_mem neg, fun y' => ?_⟩
    rw [key]; cases neg <;> simp [Deco.text, signed]

/-- The text of an endpoint, moved, is that of the endpoint with the new century. -/
theorem endpoint_move {e : Endpoint} (h : e.shape) {p : Str} (hp : p ∈ heads) {a b : Nat} {r : Str} (et : e.text = p ++ (pad2 a ++ r)) :
    ∃ c d, isDX c = true ∧ isDX d = true ∧ e.date.year = pad2 a ++ [c, d] ∧ ('-' ∈ p ↔ e.date.neg = true) ∧
      (withYear e (pad2 b ++ [c, d])).text = p ++ (pad2 b ++ r) := by
  obtain ⟨p', r', h1, h2, h3⟩ := endpoint_lead h
  obtain ⟨y1, y2, y3, y4, hy⟩ := four_chars h.1.1
  have hx := xall h.1.2.1
  have e0 : e.text = p' ++ (e.date.year ++ r') := h3 e.date.year
  rw [hy] at e0 hx
  have e' : p' ++ y1 :: (y2 :: y3 :: y4 :: r') = p ++ dig (a / 10 % 10) :: (dig (a % 10) :: r) := e0.symm.trans et
  obtain ⟨e1, e2, e3⟩ := lead_unique h1 (heads_noDX hp) (hx y1 (by simp)) (by simp [isDX]) e'
  simp only [List.cons.injEq] at e3
  refine ⟨y3, y4, hx y3 (by simp), hx y4 (by simp), ?_, by rw [← e1]; exact h2, ?_⟩
  · rw [hy, e2, e3.1]; rfl
  · rw [h3, e1, ← e3.2]; simp

theorem century_move {p : Str} (hp : p ∈ heads) {a b : Nat} (ha : a < 100) {k : Int} (hk : (b : Int) = a + 4 * (if '-' ∈ p then -k else k)) {r : Str} {neg : Bool} {n : Nat}
    (hn : n < 10000) {w : Str} (e : signed neg (pad4 n) ++ w = p ++ (pad2 a ++ r)) :
    ∃ j, j < 100 ∧ n = 100 * a + j ∧ p = signed neg [] ∧ p ++ (pad2 b ++ r) = signed neg (pad4 (100 * b + j)) ++ w ∧
      (if neg then -((100 * b + j : Nat) : Int) else ((100 * b + j : Nat) : Int)) = (if neg then -(n : Int) else n) + 400 * k := by
  obtain ⟨j, hj, rfl, rfl, rfl⟩ := century_split hp ha hn e
  refine ⟨j, hj, rfl, rfl, ?_, ?_⟩
  · rw [pad4_split b j hj, signed_eq neg (pad2 b ++ pad2 j)]; simp
  · simp only [sign_mem] at hk
    cases neg
    · simp only [Bool.false_eq_true, if_false] at hk ⊢; omega
    · simp only [if_true] at hk ⊢; omega

/-! ### Dates -/

theorem year_inv {neg : Bool} {w : Str} {y1 y2 : Int} (h : YearReads neg w y1 y2) :
    (∃ n, n < 10000 ∧ w = pad4 n ∧ y1 = (if neg then -(n : Int) else n) ∧ y2 = (if neg then -(n : Int) else n)) ∨
    (neg = false ∧ ∃ (k : Nat) (b c : Char) (b1 b2 c1 c2 : Nat), k < 10 ∧ Place b b1 b2 ∧ Place c c1 c2 ∧ w = [dig k, b, c, 'X'] ∧
      y1 = ((1000 * k + 100 * b1 + 10 * c1 : Nat) : Int) ∧ y2 = ((1000 * k + 100 * b2 + 10 * c2 + 9 : Nat) : Int)) := by
  cases h with
  | digits _ n h => exact .inl ⟨n, h, rfl, rfl, rfl⟩
  | unspecified k h hb hc => exact .inr ⟨rfl, k, _, _, _, _, _, _, h, hb, hc, rfl, rfl, rfl⟩

theorem yearReads_move {neg : Bool} {a b : Nat} (ha : a < 100) (hb : b < 100) {k : Int} (hk : (b : Int) = a + 4 * (if neg then -k else k)) {c d : Char} {y1 y2 : Int}
    (h : YearReads neg (pad2 a ++ [c, d]) y1 y2) : YearReads neg (pad2 b ++ [c, d]) (y1 + 400 * k) (y2 + 400 * k) := by
  rcases year_inv h with ⟨n, hn, e, rfl, rfl⟩ | ⟨rfl, x, p, q, b1, b2, c1, c2, hx, h1, h2, e, rfl, rfl⟩
  · obtain ⟨a', j, ha', hj, rfl⟩ : ∃ a j, a < 100 ∧ j < 100 ∧ n = 100 * a + j := ⟨n / 100, n % 100, by omega, by omega, by omega⟩
    rw [pad4_split a' j hj] at e
    have e1 : pad2 a = pad2 a' := (List.append_inj e rfl).1
    have e2 : [c, d] = pad2 j := (List.append_inj e rfl).2
    have := pad2_inj ha ha' e1
    subst this
    rw [e2, ← pad4_split b j hj]
    have : (if neg then -((100 * b + j : Nat) : Int) else ((100 * b + j : Nat) : Int)) = (if neg then -((100 * a + j : Nat) : Int) else ((100 * a + j : Nat) : Int)) + 400 * k := by
      cases neg
      · simp only [Bool.false_eq_true, if_false] at hk ⊢; omega
      · simp only [if_true] at hk ⊢; omega
    rw [← this]
    exact .digits neg _ (by omega)
  · simp only [Bool.false_eq_true, if_false] at hk
    simp only [pad2, List.cons_append, List.nil_append, List.cons.injEq, and_true] at e
    obtain ⟨e1, e2, rfl, rfl⟩ := e
    have := dig_inj (by omega) hx e1
    subst this
    rcases place_inv h1 with ⟨z, hz, rfl, rfl, rfl⟩ | ⟨rfl, -, -⟩
    · have := dig_inj (by omega) hz e2
      subst this
      have q := YearReads.unspecified (b / 10 % 10) (by omega) (Place.digit (b % 10) (by omega)) h2
      show YearReads false [dig (b / 10 % 10), dig (b % 10), c, 'X'] _ _
      have A : 10 * (a / 10 % 10) + a % 10 = a := by omega
      have B : 10 * (b / 10 % 10) + b % 10 = b := by omega
      generalize a / 10 % 10 = a1 at *
      generalize a % 10 = a2 at *
      generalize b / 10 % 10 = u1 at *
      generalize b % 10 = u2 at *
      have e3 : ((1000 * u1 + 100 * u2 + 10 * c1 : Nat) : Int) = ((1000 * a1 + 100 * a2 + 10 * c1 : Nat) : Int) + 400 * k := by omega
      have e4 : ((1000 * u1 + 100 * u2 + 10 * c2 + 9 : Nat) : Int) = ((1000 * a1 + 100 * a2 + 10 * c2 + 9 : Nat) : Int) + 400 * k := by omega
      rw [e3, e4] at q
      exact q
    · exact absurd e2 (dig_not_X (by omega))

theorem runs_move {e : Endpoint} {a b : Nat} (ha : a < 100) (hb : b < 100) {k : Int} (hk : (b : Int) = a + 4 * (if e.date.neg then -k else k)) {c d : Char}
    (hy : e.date.year = pad2 a ++ [c, d]) {y1 y2 : Int} {m1 d1 m2 d2 : Nat} (h : e.date.Runs y1 m1 d1 y2 m2 d2) :
    (withYear e (pad2 b ++ [c, d])).date.Runs (y1 + 400 * k) m1 d1 (y2 + 400 * k) m2 d2 := by
  obtain ⟨h1, h2, h3, h4, h5⟩ := h
  rw [hy] at h1
  refine ⟨yearReads_move ha hb hk h1, h2, ?_, valid_move k h4, valid_move k h5⟩
  rw [monthLen_move, monthLen_move]
  exact h3

theorem shape_move {e : Endpoint} (h : e.shape) {b : Nat} {c d : Char} (hc : isDX c = true) (hd : isDX d = true) : (withYear e (pad2 b ++ [c, d])).shape := by
  obtain ⟨⟨h1, h2, h3⟩, h4⟩ := h
  refine ⟨⟨rfl, ?_, h3⟩, h4⟩
  intro x hx
  rcases List.mem_append.1 hx with hx | hx
  · exact xdigit_iff.2 (by simp [isDX, List.all_eq_true.1 (pad2_all b) x hx])
  · rcases List.mem_cons.1 hx with rfl | hx
    · exact xdigit_iff.2 hc
    · simp only [List.mem_singleton] at hx; subst hx; exact xdigit_iff.2 hd

/-! ### Times -/

/-- The whole days of a result, moved. -/
theorem timed_move (hf : DayCount f) {e : EDTFDate} {y1 y2 : Int} {m1 d1 m2 d2 : Nat} {k : Int} (V1 : Valid y1 m1 d1) (V2 : Valid y2 m2 d2)
    (h : Timed e (86400 * f (y1 + 400 * k) m1 d1) (86400 * f (y2 + 400 * k) m2 d2 + 86399)) :
    Timed e (86400 * f y1 m1 d1 + period * k) (86400 * f y2 m2 d2 + 86399 + period * k) := by
  rw [day_move hf k V1, day_move hf k V2] at h
  unfold period
  rw [show 86400 * f y1 m1 d1 + 86400 * 146097 * k = 86400 * (f y1 m1 d1 + 146097 * k) by omega,
    show 86400 * f y2 m2 d2 + 86399 + 86400 * 146097 * k = 86400 * (f y2 m2 d2 + 146097 * k) + 86399 by omega]
  exact h

/-- A date with another year. -/
theorem date0_move {x : Date0} (h : x.ok) {n : Nat} (hn : n < 10000) {k : Int} (hv : (⟨x.neg, n, x.tail⟩ : Date0).value = x.value + 400 * k) :
    (⟨x.neg, n, x.tail⟩ : Date0).ok ∧ (⟨x.neg, n, x.tail⟩ : Date0).first = x.first ∧ (⟨x.neg, n, x.tail⟩ : Date0).last = x.last := by
  obtain ⟨neg, y, t⟩ := x
  obtain ⟨h1, h2⟩ := h
  cases t with
  | none => exact ⟨⟨hn, trivial⟩, rfl, rfl⟩
  | month m => exact ⟨⟨hn, h2⟩, rfl, by show (m, monthLen _ m) = (m, monthLen _ m); rw [hv, monthLen_move]⟩
  | day m d => exact ⟨⟨hn, by show Valid _ m d; rw [hv]; exact valid_move k h2⟩, rfl, rfl⟩

theorem date0_seconds (hf : DayCount f) {x : Date0} (h : x.ok) {n : Nat} (hn : n < 10000) {k : Int} (hv : (⟨x.neg, n, x.tail⟩ : Date0).value = x.value + 400 * k) :
    firstSecond f ⟨x.neg, n, x.tail⟩ = firstSecond f x + period * k ∧ lastSecond f ⟨x.neg, n, x.tail⟩ = lastSecond f x + period * k := by
  obtain ⟨-, h2, h3⟩ := date0_move h hn hv
  unfold firstSecond lastSecond
  rw [hv, h2, h3, day_move hf k (Date0.valid_first h), day_move hf k (Date0.valid_last h)]
  unfold period
  omega

theorem date0_signed (x : Date0) : ∃ w, ∀ n, (⟨x.neg, n, x.tail⟩ : Date0).text = signed x.neg (pad4 n) ++ w := by
  obtain ⟨neg, y, t⟩ := x
  cases t with
  | none => exact ⟨[], fun n => by cases neg <;> simp [date0_text, yearStr, sgn, signed]⟩
  | month m => exact ⟨'-' :: pad2 m, fun n => by cases neg <;> simp [date0_text, yearStr, sgn, signed]⟩
  | day m d => exact ⟨'-' :: (pad2 m ++ '-' :: pad2 d), fun n => by cases neg <;> simp [date0_text, yearStr, sgn, signed]⟩

theorem head_of {p : Str} (hp : p ∈ heads) {a : Nat} {r : Str} {c : Char} {w : Str} (e : c :: w = p ++ (pad2 a ++ r)) : isDX c = true ∨ c ∈ c! "-?~%" := by
  cases p with
  | nil =>
    simp only [pad2, List.nil_append, List.cons_append, List.cons.injEq] at e
    rw [e.1]; left; simp [isDX]
  | cons x p =>
    simp only [List.cons_append, List.cons.injEq] at e
    rw [e.1]
    exact .inr ((by decide : ∀ q ∈ heads, ∀ y ∈ q.head?, y ∈ c! "-?~%") _ hp x rfl)

theorem heads_noSlash {p : Str} (hp : p ∈ heads) {a : Nat} {r : Str} (hr : '/' ∉ r) : '/' ∉ p ++ (pad2 a ++ r) := by
  have h1 := (by decide : ∀ q ∈ heads, '/' ∉ q) _ hp
  have h2 := pad2_not_mem a (c := '/') (by decide)
  simp only [List.mem_append, not_or]
  exact ⟨h1, h2, hr⟩

theorem moved_noX {p : Str} (hp : p ∈ heads) {a b : Nat} {r : Str} (h : 'X' ∉ p ++ (pad2 a ++ r)) : 'X' ∉ p ++ (pad2 b ++ r) := by
  simp only [List.mem_append, not_or] at h ⊢
  exact ⟨h.1, pad2_noX b, h.2.2⟩

end EDTF
