/- Exponential notation: the float arithmetic and the way to the parser. -/
import Verif.PropsSig
import Verif.LemmasPanic
namespace EDTF
open Spec

namespace BF

theorem bitLen_le {n k : Nat} : bitLen n ≤ k ↔ n < 2 ^ k := by
  unfold bitLen
  by_cases h : n = 0
  · subst h; simp; exact Nat.two_pow_pos k
  · rw [if_neg h, ← Nat.log2_lt h]; omega

theorem lt_bitLen {n k : Nat} : k < bitLen n ↔ 2 ^ k ≤ n := by
  have := @bitLen_le n k
  omega

theorem lt_two_pow_bitLen (n : Nat) : n < 2 ^ bitLen n := bitLen_le.1 (Nat.le_refl _)

theorem round_exact {prec m e : Nat} (h : bitLen m ≤ prec) : round prec m e = if bitLen m + e > maxExp then .inf else .fin m e := by
  unfold round
  simp only [if_pos h]

/-- The mantissa after rounding. -/
def roundQ (prec m : Nat) : Nat :=
  let k := bitLen m - prec
  let q := m / 2 ^ k
  let r := m % 2 ^ k
  let half := 2 ^ (k - 1)
  if r > half then q + 1 else if r < half then q else if q % 2 = 1 then q + 1 else q

theorem round_long {prec m e : Nat} (h : prec < bitLen m) :
    round prec m e = if bitLen (roundQ prec m) + (e + (bitLen m - prec)) > maxExp then .inf else .fin (roundQ prec m) (e + (bitLen m - prec)) := by
  unfold round roundQ
  simp only [if_neg (show ¬ bitLen m ≤ prec by omega)]

theorem roundQ_bounds (prec m : Nat) : m / 2 ^ (bitLen m - prec) ≤ roundQ prec m ∧ roundQ prec m ≤ m / 2 ^ (bitLen m - prec) + 1 := by
  unfold roundQ
  simp only
  repeat' split
  all_goals omega

end BF

open BF

theorem low64_exact {m e v : Nat} (h : m * 2 ^ e = v) (hv : v < 2 ^ 64) : low64 m e = v := by
  by_cases hm : m = 0
  · subst hm; simp at h; subst h; simp [low64]
  · have : e < 64 := by
      apply Nat.lt_of_not_le
      intro he
      have h1 : 2 ^ 64 ≤ 2 ^ e := Nat.pow_le_pow_right (by decide) he
      have h2 : 1 * 2 ^ e ≤ m * 2 ^ e := Nat.mul_le_mul_right _ (by omega)
      omega
    show (if e ≥ 64 then 0 else m * 2 ^ e % 2 ^ 64) = v
    rw [if_neg (by omega), h, Nat.mod_eq_of_lt hv]

theorem ten_pow (e : Nat) : 10 ^ e = 5 ^ e * 2 ^ e := by rw [← Nat.mul_pow]

/-- Up to 2^64 the float arithmetic is exact. -/
theorem ofExp_exact {m e : Nat} (h : m * 10 ^ e < 2 ^ 64) :
    ∃ q x, ofExp m e = some (.fin q x) ∧ low64 q x = m * 10 ^ e := by
  unfold ofExp
  by_cases hm : m = 0
  · subst hm
    exact ⟨0, 0, if_pos rfl, by simp [low64]⟩
  rw [if_neg hm]
  have he : e < 20 := by
    apply Nat.lt_of_not_le
    intro h20
    have h1 : 10 ^ 20 ≤ 10 ^ e := Nat.pow_le_pow_right (by decide) h20
    have h2 : 1 * 10 ^ e ≤ m * 10 ^ e := Nat.mul_le_mul_right _ (by omega)
    have h3 : (2 : Nat) ^ 64 ≤ 10 ^ 20 := by decide
    omega
  have h1 : m ≤ m * 10 ^ e := Nat.le_mul_of_pos_right _ (Nat.pow_pos (by decide))
  have b1 : bitLen m ≤ 64 := bitLen_le.2 (by omega)
  have hmax : maxExp = 2 ^ 31 - 1 := rfl
  rw [if_neg (by omega)]
  by_cases h0 : e = 0
  · subst h0
    refine ⟨m, 0, ?_, low64_exact (by simp) (by simpa using h)⟩
    rw [if_pos rfl, round_exact b1, if_neg (by omega)]
  · rw [if_neg h0]
    have h2 : m * 5 ^ e * 2 ^ e = m * 10 ^ e := by rw [ten_pow, Nat.mul_assoc]
    have h3 : m * 5 ^ e ≤ m * 5 ^ e * 2 ^ e := Nat.le_mul_of_pos_right _ (Nat.pow_pos (by decide))
    have b2 : bitLen (m * 5 ^ e) ≤ 64 := bitLen_le.2 (by omega)
    refine ⟨m * 5 ^ e, e, ?_, low64_exact h2 h⟩
    unfold pow5 mul
    rw [if_pos (by omega)]
    simp only [Nat.add_zero]
    rw [round_exact b2, if_neg (by omega)]

theorem round_exp {prec m e q x : Nat} (h : round prec m e = .fin q x) : e ≤ x ∧ bitLen m + e ≤ prec + x := by
  by_cases hb : bitLen m ≤ prec
  · rw [round_exact hb] at h
    split at h
    · cases h
    · injection h with h1 h2; omega
  · rw [round_long (by omega)] at h
    split at h
    · cases h
    · injection h with h1 h2; omega

/-- From 2^78 on the low fourteen bits of the result are lost. -/
theorem ofExp_huge {m e q x : Nat} (h : 2 ^ 78 ≤ m * 10 ^ e) (ho : ofExp m e = some (.fin q x)) : 14 ≤ x := by
  unfold ofExp at ho
  split at ho
  · rename_i hm
    subst hm
    rw [Nat.zero_mul] at h
    exact absurd h (by decide)
  split at ho
  · cases ho
  split at ho
  · rename_i h0
    subst h0
    injection ho with ho
    have := round_exp ho
    have hb : 78 < bitLen m := lt_bitLen.2 (by simpa using h)
    omega
  · injection ho with ho
    by_cases h27 : e ≤ 27
    · unfold pow5 mul at ho
      rw [if_pos h27] at ho
      have := round_exp ho
      have h2 : m * 5 ^ e * 2 ^ e = m * 10 ^ e := by rw [ten_pow, Nat.mul_assoc]
      have h3 := lt_two_pow_bitLen (m * 5 ^ e)
      have h4 : m * 5 ^ e * 2 ^ e < 2 ^ bitLen (m * 5 ^ e) * 2 ^ e := Nat.mul_lt_mul_of_pos_right h3 (Nat.pow_pos (by decide))
      rw [← Nat.pow_add, h2] at h4
      have h5 : 78 < bitLen (m * 5 ^ e) + e := (Nat.pow_lt_pow_iff_right (by decide : 1 < 2)).1 (Nat.lt_of_le_of_lt h h4)
      omega
    · cases hp : pow5 e with
      | inf => rw [hp] at ho; cases ho
      | fin a b =>
        rw [hp] at ho
        have := round_exp (show round 64 (m * a) (e + b) = .fin q x from ho)
        omega

theorem low64_multiple {q x : Nat} (h : 14 ≤ x) : ∃ k, low64 q x = 16384 * k := by
  show ∃ k, (if x ≥ 64 then 0 else q * 2 ^ x % 2 ^ 64) = 16384 * k
  by_cases hx : x ≥ 64
  · exact ⟨0, if_pos hx⟩
  · rw [if_neg hx]
    have h1 : 2 ^ x = 2 ^ 14 * 2 ^ (x - 14) := by rw [← Nat.pow_add]; congr 1; omega
    have h2 : (2 : Nat) ^ 64 = 2 ^ 14 * 2 ^ 50 := by decide
    refine ⟨q * 2 ^ (x - 14) % 2 ^ 50, ?_⟩
    rw [h1, Nat.mul_left_comm, h2, Nat.mul_mod_mul_left]

/-! ### Overflow -/

/-- A float that is at least `2^k` (or infinite). -/
def BF.atLeast (k : Nat) : BF → Prop
  | .fin m e => m ≠ 0 ∧ k < bitLen m + e
  | .inf => True

theorem bitLen_pos {m : Nat} (h : m ≠ 0) : 0 < bitLen m := lt_bitLen.2 (by simp; omega)

theorem bitLen_mul {a b : Nat} (ha : a ≠ 0) (hb : b ≠ 0) : bitLen a + bitLen b - 1 ≤ bitLen (a * b) := by
  have h1 := bitLen_pos ha
  have h2 := bitLen_pos hb
  have h3 : 2 ^ (bitLen a - 1) ≤ a := lt_bitLen.1 (by omega)
  have h4 : 2 ^ (bitLen b - 1) ≤ b := lt_bitLen.1 (by omega)
  have h5 : 2 ^ (bitLen a - 1 + (bitLen b - 1)) ≤ a * b := by rw [Nat.pow_add]; exact Nat.mul_le_mul h3 h4
  have := lt_bitLen.2 h5
  omega

theorem bitLen_div {m k : Nat} (h : k ≤ bitLen m) : bitLen (m / 2 ^ k) = bitLen m - k := by
  apply Nat.le_antisymm
  · rw [bitLen_le]
    apply Nat.div_lt_of_lt_mul
    rw [← Nat.pow_add]
    rw [show k + (bitLen m - k) = bitLen m by omega]
    exact lt_two_pow_bitLen m
  · by_cases h' : bitLen m = k
    · omega
    · have : bitLen m - k - 1 < bitLen (m / 2 ^ k) := by
        rw [lt_bitLen, Nat.le_div_iff_mul_le (Nat.pow_pos (by decide)), ← Nat.pow_add, show bitLen m - k - 1 + k = bitLen m - 1 by omega]
        exact lt_bitLen.1 (by omega)
      omega

theorem roundQ_bitLen {prec m : Nat} (h : prec < bitLen m) : prec ≤ bitLen (roundQ prec m) := by
  have h1 := (roundQ_bounds prec m).1
  have h2 := bitLen_div (m := m) (k := bitLen m - prec) (by omega)
  have h3 : bitLen (m / 2 ^ (bitLen m - prec)) ≤ bitLen (roundQ prec m) :=
    bitLen_le.2 (Nat.lt_of_le_of_lt h1 (lt_two_pow_bitLen _))
  omega

theorem round_atLeast {prec m e k : Nat} (hp : 0 < prec) (hm : m ≠ 0) (h : k < bitLen m + e) : (round prec m e).atLeast k := by
  by_cases hb : bitLen m ≤ prec
  · rw [round_exact hb]
    split
    · trivial
    · exact ⟨hm, h⟩
  · rw [round_long (by omega)]
    split
    · trivial
    · have h1 := roundQ_bitLen (m := m) (prec := prec) (by omega)
      refine ⟨fun h0 => ?_, ?_⟩
      · rw [h0] at h1
        have : bitLen 0 = 0 := rfl
        omega
      · omega

theorem mul_atLeast {prec : Nat} (hp : 0 < prec) {a b : BF} {i j : Nat} (ha : a.atLeast i) (hb : b.atLeast j) : (mul prec a b).atLeast (i + j) := by
  cases a with
  | inf => cases b <;> trivial
  | fin m e =>
    cases b with
    | inf => trivial
    | fin m' e' =>
      have := bitLen_mul ha.1 hb.1
      have h1 := bitLen_pos ha.1
      have h2 := bitLen_pos hb.1
      have h3 := ha.2
      have h4 := hb.2
      exact round_atLeast hp (Nat.mul_ne_zero ha.1 hb.1) (by omega)

theorem pow5Loop_atLeast (fuel : Nat) : ∀ (n : Nat) (z f : BF) (a b : Nat), n < 2 ^ fuel → z.atLeast a → f.atLeast b →
    (pow5Loop fuel n z f).atLeast (a + b * n) := by
  induction fuel with
  | zero =>
    intro n z f a b hn hz _
    have : n = 0 := by simpa using hn
    subst this
    exact hz
  | succ fuel ih =>
    intro n z f a b hn hz hf
    unfold pow5Loop
    by_cases h0 : n = 0
    · subst h0; rw [if_pos rfl]; exact hz
    · rw [if_neg h0]
      rw [Nat.pow_succ] at hn
      have hf2 : (mul 192 f f).atLeast (b + b) := mul_atLeast (by decide) hf hf
      by_cases hodd : n % 2 = 1
      · rw [if_pos hodd]
        have := ih (n / 2) _ _ (a + b) (b + b) (by omega) (mul_atLeast (prec := 128) (by decide) hz hf) hf2
        have e : a + b + (b + b) * (n / 2) = a + b * n := by
          rw [← Nat.two_mul, Nat.mul_comm 2 b, Nat.mul_assoc, Nat.add_assoc]
          congr 1
          conv => rhs; rw [show n = 1 + 2 * (n / 2) by omega, Nat.mul_add, Nat.mul_one]
        rwa [e] at this
      · rw [if_neg hodd]
        have := ih (n / 2) _ _ a (b + b) (by omega) hz hf2
        have e : a + (b + b) * (n / 2) = a + b * n := by
          rw [← Nat.two_mul, Nat.mul_comm 2 b, Nat.mul_assoc]
          congr 2
          omega
        rwa [e] at this

theorem pow5_atLeast {n : Nat} (hn : n < 2 ^ 64) : (pow5 n).atLeast (2 * n) := by
  unfold pow5
  split
  · refine ⟨Nat.pos_iff_ne_zero.1 (Nat.pow_pos (by decide)), ?_⟩
    have : 2 ^ (2 * n) ≤ 5 ^ n := by rw [Nat.pow_mul]; exact Nat.pow_le_pow_left (by decide) n
    have := lt_bitLen.2 this
    omega
  · have := pow5Loop_atLeast 64 (n - 27) (.fin (5 ^ 27) 0) (.fin 5 0) 54 2 (by omega) ⟨by decide, by decide⟩ ⟨by decide, by decide⟩
    rwa [show 54 + 2 * (n - 27) = 2 * n by omega] at this

theorem round_max {prec m e q x : Nat} (h : round prec m e = .fin q x) : bitLen q + x ≤ maxExp := by
  by_cases hb : bitLen m ≤ prec
  · rw [round_exact hb] at h
    split at h
    · cases h
    · injection h with h1 h2; subst h1 h2; omega
  · rw [round_long (by omega)] at h
    split at h
    · cases h
    · injection h with h1 h2; subst h1 h2; omega

/-- Exponents from about 2^31/3 on overflow to infinity. -/
theorem ofExp_inf {m e : Nat} (hm : m ≠ 0) (h1 : bitLen m + e ≤ maxExp) (h2 : maxExp < bitLen m + 3 * e) : ofExp m e = some .inf := by
  have hmax : maxExp = 2 ^ 31 - 1 := rfl
  have hb := bitLen_pos hm
  unfold ofExp
  rw [if_neg hm, if_neg (by omega), if_neg (by omega)]
  have h := mul_atLeast (prec := 64) (by decide) (a := .fin m e) (i := bitLen m - 1 + e) ⟨hm, by omega⟩ (pow5_atLeast (n := e) (by omega))
  cases hr : mul 64 (.fin m e) (pow5 e) with
  | inf => rfl
  | fin q x =>
    exfalso
    rw [hr] at h
    have := h.2
    cases hp : pow5 e with
    | inf => rw [hp] at hr; cases hr
    | fin a b =>
      rw [hp] at hr
      have := round_max (show round 64 (m * a) (e + b) = .fin q x from hr)
      omega

/-- A float that is at most `2^k`. -/
def BF.atMost (k : Nat) (a : BF) : Prop := ∃ m e, a = .fin m e ∧ m ≠ 0 ∧ m * 2 ^ e ≤ 2 ^ k

theorem atMost_bitLen {q x k : Nat} (h0 : q ≠ 0) (h : q * 2 ^ x ≤ 2 ^ k) : bitLen q + x ≤ k + 1 := by
  have h1 := bitLen_pos h0
  have h2 : 2 ^ (bitLen q - 1) ≤ q := lt_bitLen.1 (by omega)
  have h3 : 2 ^ (bitLen q - 1 + x) ≤ q * 2 ^ x := by rw [Nat.pow_add]; exact Nat.mul_le_mul_right _ h2
  have := (Nat.pow_le_pow_iff_right (by decide : 1 < 2)).1 (Nat.le_trans h3 h)
  omega

theorem round_atMost {prec m e k : Nat} (hp : 0 < prec) (hk : k < maxExp) (hm : m ≠ 0) (h : m * 2 ^ e ≤ 2 ^ k) : (round prec m e).atMost k := by
  have hpos := bitLen_pos hm
  by_cases hb : bitLen m ≤ prec
  · have := atMost_bitLen hm h
    rw [round_exact hb, if_neg (by omega)]
    exact ⟨m, e, rfl, hm, h⟩
  · have h0 : roundQ prec m ≠ 0 := by
      intro h0
      have h1 := roundQ_bitLen (m := m) (prec := prec) (by omega)
      rw [h0] at h1
      have : bitLen 0 = 0 := rfl
      omega
    have hsh : ∃ sh, bitLen m = prec + sh + 1 := ⟨bitLen m - prec - 1, by omega⟩
    obtain ⟨sh, hsh⟩ := hsh
    have hlast : roundQ prec m * 2 ^ (e + (bitLen m - prec)) ≤ 2 ^ k := by
      by_cases hp2 : m = 2 ^ (bitLen m - 1)
      · have hq : roundQ prec m = m / 2 ^ (bitLen m - prec) := by
          unfold roundQ
          have hz : m % 2 ^ (bitLen m - prec) = 0 := by
            apply Nat.mod_eq_zero_of_dvd
            rw [hp2]
            conv => lhs; rw [← hp2]
            exact Nat.pow_dvd_pow 2 (by omega)
          simp only [hz]
          rw [if_neg (Nat.not_lt_zero _), if_pos (Nat.pow_pos (by decide))]
        rw [hq, Nat.add_comm e, Nat.pow_add, ← Nat.mul_assoc]
        exact Nat.le_trans (Nat.mul_le_mul_right _ (Nat.div_mul_le_self _ _)) h
      · have h2 : 2 ^ (bitLen m - 1) ≤ m := lt_bitLen.1 (by omega)
        have h3 : 2 ^ (bitLen m - 1) < m := by omega
        have h4 : 2 ^ (bitLen m - 1 + e) < m * 2 ^ e := by
          rw [Nat.pow_add]; exact Nat.mul_lt_mul_of_pos_right h3 (Nat.pow_pos (by decide))
        have h5 := (Nat.pow_lt_pow_iff_right (by decide : 1 < 2)).1 (Nat.lt_of_lt_of_le h4 h)
        have h6 := (roundQ_bounds prec m).2
        have h7 : m / 2 ^ (bitLen m - prec) < 2 ^ prec := by
          apply bitLen_le.1
          rw [bitLen_div (by omega)]
          omega
        have h8 : roundQ prec m ≤ 2 ^ prec := by omega
        refine Nat.le_trans (Nat.mul_le_mul_right _ h8) ?_
        rw [← Nat.pow_add]
        exact Nat.pow_le_pow_right (by decide) (by omega)
    have := atMost_bitLen h0 hlast
    rw [round_long (by omega), if_neg (by omega)]
    exact ⟨_, _, rfl, h0, hlast⟩

theorem mul_atMost {prec : Nat} (hp : 0 < prec) {a b : BF} {i j : Nat} (hk : i + j < maxExp) (ha : a.atMost i) (hb : b.atMost j) :
    (mul prec a b).atMost (i + j) := by
  obtain ⟨m, e, rfl, hm, h1⟩ := ha
  obtain ⟨m', e', rfl, hm', h2⟩ := hb
  apply round_atMost hp hk (Nat.mul_ne_zero hm hm')
  rw [Nat.pow_add, Nat.pow_add, Nat.mul_mul_mul_comm]
  exact Nat.mul_le_mul h1 h2

theorem pow5Loop_atMost (fuel : Nat) : ∀ (n : Nat) (z f : BF) (a b : Nat), z.atMost a → (n ≠ 0 → f.atMost b) → a + b * n < maxExp →
    (pow5Loop fuel n z f).atMost (a + b * n) := by
  have mono : ∀ (z : BF) (a c : Nat), z.atMost a → z.atMost (a + c) := by
    intro z a c ⟨m, e, h1, h2, h3⟩
    exact ⟨m, e, h1, h2, Nat.le_trans h3 (Nat.pow_le_pow_right (by decide) (by omega))⟩
  induction fuel with
  | zero => intro n z f a b hz _ _; exact mono _ _ _ hz
  | succ fuel ih =>
    intro n z f a b hz hf hk
    unfold pow5Loop
    by_cases h0 : n = 0
    · subst h0; rw [if_pos rfl]; exact hz
    · rw [if_neg h0]
      have hf := hf h0
      have hf2 : n / 2 ≠ 0 → (mul 192 f f).atMost (b + b) := by
        intro h
        have : b * 2 ≤ b * n := Nat.mul_le_mul_left b (by omega)
        exact mul_atMost (by decide) (by omega) hf hf
      by_cases hodd : n % 2 = 1
      · rw [if_pos hodd]
        have e : a + b + (b + b) * (n / 2) = a + b * n := by
          rw [← Nat.two_mul, Nat.mul_comm 2 b, Nat.mul_assoc, Nat.add_assoc]
          congr 1
          conv => rhs; rw [show n = 1 + 2 * (n / 2) by omega, Nat.mul_add, Nat.mul_one]
        have : b * 1 ≤ b * n := Nat.mul_le_mul_left b (by omega)
        have := ih (n / 2) _ _ (a + b) (b + b) (mul_atMost (prec := 128) (by decide) (by omega) hz hf) hf2 (by omega)
        rwa [e] at this
      · rw [if_neg hodd]
        have e : a + (b + b) * (n / 2) = a + b * n := by
          rw [← Nat.two_mul, Nat.mul_comm 2 b, Nat.mul_assoc]
          congr 2
          omega
        have := ih (n / 2) _ _ a (b + b) hz hf2 (by omega)
        rwa [e] at this

theorem pow5_atMost {n : Nat} (hn : 3 * n < maxExp) : (pow5 n).atMost (3 * n) := by
  unfold pow5
  split
  · refine ⟨_, _, rfl, Nat.pos_iff_ne_zero.1 (Nat.pow_pos (by decide)), ?_⟩
    rw [Nat.pow_mul]
    exact Nat.le_trans (Nat.le_of_eq (Nat.mul_one _)) (Nat.pow_le_pow_left (by decide) n)
  · have := pow5Loop_atMost 64 (n - 27) (.fin (5 ^ 27) 0) (.fin 5 0) 81 3 ⟨_, _, rfl, by decide, by decide⟩ (fun _ => ⟨_, _, rfl, by decide, by decide⟩)
      (by omega)
    rwa [show 81 + 3 * (n - 27) = 3 * n by omega] at this

/-- Exponents up to about 2^31/4 do not overflow. -/
theorem ofExp_fin {m e : Nat} (h : bitLen m + 4 * e < maxExp) : ∃ q x, ofExp m e = some (.fin q x) := by
  have hmax : maxExp = 2 ^ 31 - 1 := rfl
  unfold ofExp
  by_cases hm : m = 0
  · exact ⟨0, 0, if_pos hm⟩
  rw [if_neg hm, if_neg (by omega)]
  have hb := lt_two_pow_bitLen m
  have h1 : m * 2 ^ e ≤ 2 ^ (bitLen m + e) := by rw [Nat.pow_add]; exact Nat.mul_le_mul_right _ (by omega)
  by_cases h0 : e = 0
  · rw [if_pos h0]
    obtain ⟨q, x, e1, -⟩ := round_atMost (prec := 64) (m := m) (e := 0) (k := bitLen m) (by decide) (by omega) hm (by simp; omega)
    exact ⟨q, x, by rw [e1]⟩
  · rw [if_neg h0]
    obtain ⟨q, x, e1, -⟩ := mul_atMost (prec := 64) (i := bitLen m + e) (j := 3 * e) (by decide) (by omega) ⟨m, e, rfl, hm, h1⟩ (pow5_atMost (n := e) (by omega))
    exact ⟨q, x, by rw [e1]⟩

/-! ### The notation -/

theorem splitE_append {u v : Str} {ec : Char} (hec : ec = 'E' ∨ ec = 'e') (hu : u.all isDig = true) : splitE (u ++ ec :: v) = some (u, v) := by
  induction u with
  | nil => rcases hec with rfl | rfl <;> rfl
  | cons c u ih =>
    simp only [List.all_cons, Bool.and_eq_true] at hu
    have h1 : c ≠ 'e' := isDig_ne hu.1 (by decide)
    have h2 : c ≠ 'E' := isDig_ne hu.1 (by decide)
    rw [List.cons_append, splitE, if_neg (by simp [h1, h2]), ih hu.2]
    rfl

/-- What is done with the float. -/
def expTail (neg : Bool) (nt : Str) : Option BF → Res Int
  | none => .err .plain
  | some .inf => .panic
  | some (.fin m x) =>
    if (if neg then wrap64 (-(wrap64 (low64 m x))) else wrap64 (low64 m x)) > MAX_YEARS ∨
       (if neg then wrap64 (-(wrap64 (low64 m x))) else wrap64 (low64 m x)) < 0 - MAX_YEARS then
      .err (Unsupported (c! "exponential notation") nt)
    else .ok (if neg then wrap64 (-(wrap64 (low64 m x))) else wrap64 (low64 m x))

theorem exponential_eq (neg : Bool) {ms es : Str} {ec : Char} (hec : ec = 'E' ∨ ec = 'e') (hm : ms.all isDig = true) (hm0 : ms ≠ []) (he : es.all isDig = true) (he0 : es ≠ []) :
    parseExponentialNotation (sgn neg (ms ++ ec :: es)) =
      if 2 ^ 63 ≤ digitsVal es then .err .plain
      else expTail neg (sgn neg (ms ++ ec :: es)) (ofExp (digitsVal ms) (digitsVal es)) := by
  have key : ∀ (nb : Bool) (nt : Str), (match splitE (ms ++ ec :: es) with
      | none => Res.err Err.plain
      | some (ms, es) =>
        if ms.isEmpty || !ms.all isDig || es.isEmpty || !es.all isDig then Res.err Err.plain
        else do
          let e ← Res.ofOption (parseInt 64 es)
          match BF.ofExp (digitsVal ms) e.toNat with
          | none => Res.err Err.plain
          | some .inf => Res.panic
          | some (.fin m x) =>
            let v := wrap64 (BF.low64 m x)
            let v := if nb then wrap64 (-v) else v
            if v > MAX_YEARS ∨ v < 0 - MAX_YEARS then
              Res.err (Unsupported (c! "exponential notation") nt)
            else Res.ok v) = if 2 ^ 63 ≤ digitsVal es then .err .plain else expTail nb nt (ofExp (digitsVal ms) (digitsVal es)) := by
    intro nb nt
    rw [splitE_append hec hm]
    simp only
    have i1 : ms.isEmpty = false := by cases ms with | nil => exact absurd rfl hm0 | cons => rfl
    have i2 : es.isEmpty = false := by cases es with | nil => exact absurd rfl he0 | cons => rfl
    have hp : parseInt 64 es = if digitsVal es < 2 ^ 63 then some (digitsVal es : Int) else none := parseInt_digits 64 he he0
    rw [i1, i2, hm, he, if_neg (by decide), hp]
    by_cases h63 : digitsVal es < 2 ^ 63
    · rw [if_pos h63, if_neg (by omega)]
      simp only [Res.ofOption, Res.ok_bind, Int.toNat_natCast]
      unfold expTail
      split <;> simp
    · rw [if_neg h63, if_pos (by omega)]
      rfl
  unfold parseExponentialNotation
  cases neg
  · obtain ⟨c, t, rfl⟩ := List.exists_cons_of_ne_nil hm0
    have hc : isDig c = true := List.all_eq_true.1 hm c (by simp)
    have hc' : c ∈ ['0', '1', '2', '3', '4', '5', '6', '7', '8', '9'] := by
      obtain ⟨k, hk, rfl⟩ := (isDig_iff c).1 hc
      have : ∀ k, k < 10 → dig k ∈ ['0', '1', '2', '3', '4', '5', '6', '7', '8', '9'] := by decide
      exact this k hk
    simp only [List.mem_cons, List.not_mem_nil, or_false] at hc'
    rcases hc' with rfl | rfl | rfl | rfl | rfl | rfl | rfl | rfl | rfl | rfl <;> exact key false _
  · exact key true _

end EDTF
