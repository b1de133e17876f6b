/-
The arithmetic of exponential notation: the float of math/big against its specification.
-/
import Verif.LemmasFail3
namespace EDTF
open Spec BF

/-! ### Rounding to any number of places -/

theorem rounds_64 {n r : Nat} : Rounds 64 n r ↔ Rounds64 n r := Iff.rfl

/-- Rounding determines its result. -/
theorem rounds_unique {p n r r' : Nat} (hp : 0 < p) (h : Rounds p n r) (h' : Rounds p n r') : r = r' := by
  have big : ∀ {k}, 0 < k → 2 ^ (p - 1 + k) ≤ n → ¬ n < 2 ^ p := by
    intro k hk h hn
    have : 2 ^ p ≤ 2 ^ (p - 1 + k) := Nat.pow_le_pow_right (by decide) (by omega)
    omega
  rcases h with ⟨h1, rfl⟩ | ⟨k, q, hk, a1, a2, rfl, a3⟩
  · rcases h' with ⟨-, rfl⟩ | ⟨k, q, hk, a1, -⟩
    · rfl
    · exact absurd h1 (big hk a1)
  · rcases h' with ⟨h1, rfl⟩ | ⟨k', q', hk', b1, b2, rfl, b3⟩
    · exact absurd h1 (big hk a1)
    · have e1 := bitLen_eq a1 (by rw [show p - 1 + k + 1 = p + k by omega]; exact a2)
      have e2 := bitLen_eq b1 (by rw [show p - 1 + k' + 1 = p + k' by omega]; exact b2)
      have : k = k' := by omega
      subst this
      have aux : ∀ {q q' : Nat}, q < q' →
          (2 * (n - q * 2 ^ k) + 2 * (q * 2 ^ k - n) < 2 ^ k ∨ 2 * (n - q * 2 ^ k) + 2 * (q * 2 ^ k - n) = 2 ^ k ∧ 2 ∣ q) →
          (2 * (n - q' * 2 ^ k) + 2 * (q' * 2 ^ k - n) < 2 ^ k ∨ 2 * (n - q' * 2 ^ k) + 2 * (q' * 2 ^ k - n) = 2 ^ k ∧ 2 ∣ q') → False := by
        intro q q' hlt a3 b3
        obtain ⟨j, rfl⟩ : ∃ j, q' = q + 1 + j := ⟨q' - q - 1, by omega⟩
        have hP := Nat.two_pow_pos k
        have e : (q + 1 + j) * 2 ^ k = q * 2 ^ k + 2 ^ k + j * 2 ^ k := by rw [Nat.add_mul, Nat.add_mul, Nat.one_mul]
        have hj : j = 0 ∨ 2 ^ k ≤ j * 2 ^ k := by
          rcases Nat.eq_zero_or_pos j with h | h
          · exact Or.inl h
          · exact Or.inr (Nat.le_mul_of_pos_left _ h)
        rw [e] at b3
        generalize q * 2 ^ k = A at *
        generalize hJ : j * 2 ^ k = J at *
        generalize 2 ^ k = P at *
        rcases hj with rfl | hj
        · rw [Nat.zero_mul] at hJ
          subst hJ
          omega
        · omega
      rcases Nat.lt_trichotomy q q' with h | h | h
      · exact (aux h a3 b3).elim
      · rw [h]
      · exact (aux h b3 a3).elim

/-- The rounded mantissa. -/
theorem roundQ_to {p M e : Nat} (hp : 0 < p) (h : p < bitLen M) : Rounds p (M * 2 ^ e) (roundQ p M * 2 ^ (e + (bitLen M - p))) := by
  have hM : M ≠ 0 := by rintro rfl; simp [bitLen] at h
  have hb := bitLen_shift hM e
  obtain ⟨k0, hk0⟩ : ∃ k0, bitLen M - p = k0 + 1 := ⟨bitLen M - p - 1, by omega⟩
  refine Or.inr ⟨e + (bitLen M - p), roundQ p M, by omega, lt_bitLen.1 (by omega), bitLen_le.1 (by omega), rfl, ?_⟩
  rw [Nat.pow_add 2 e, Nat.mul_comm (2 ^ e) (2 ^ (bitLen M - p)), ← Nat.mul_assoc]
  have key : 2 * (M - roundQ p M * 2 ^ (bitLen M - p)) + 2 * (roundQ p M * 2 ^ (bitLen M - p) - M) < 2 ^ (bitLen M - p) ∨
      (2 * (M - roundQ p M * 2 ^ (bitLen M - p)) + 2 * (roundQ p M * 2 ^ (bitLen M - p) - M) = 2 ^ (bitLen M - p) ∧ 2 ∣ roundQ p M) := by
    unfold roundQ
    simp only
    rw [hk0]
    have hp : 2 ^ (k0 + 1) = 2 * 2 ^ k0 := by rw [Nat.pow_succ]; omega
    have hdm := Nat.div_add_mod M (2 ^ (k0 + 1))
    have hlt := Nat.mod_lt M (Nat.two_pow_pos (k0 + 1))
    rw [show k0 + 1 - 1 = k0 by omega]
    generalize hq : M / 2 ^ (k0 + 1) = q at *
    generalize hr : M % 2 ^ (k0 + 1) = r at *
    rw [hp] at *
    have hP := Nat.two_pow_pos k0
    rw [Nat.mul_comm] at hdm
    have e1 : (q + 1) * (2 * 2 ^ k0) = q * (2 * 2 ^ k0) + 2 * 2 ^ k0 := by rw [Nat.add_mul, Nat.one_mul]
    split
    · rw [e1]; generalize q * (2 * 2 ^ k0) = A at *; generalize 2 ^ k0 = P at *; omega
    · split
      · generalize q * (2 * 2 ^ k0) = A at *; generalize 2 ^ k0 = P at *; omega
      · split
        · rw [e1]; generalize q * (2 * 2 ^ k0) = A at *; generalize 2 ^ k0 = P at *; omega
        · generalize q * (2 * 2 ^ k0) = A at *; generalize 2 ^ k0 = P at *; omega
  have hE := Nat.two_pow_pos e
  have e2 : 2 * (M * 2 ^ e - roundQ p M * 2 ^ (bitLen M - p) * 2 ^ e) + 2 * (roundQ p M * 2 ^ (bitLen M - p) * 2 ^ e - M * 2 ^ e) =
      (2 * (M - roundQ p M * 2 ^ (bitLen M - p)) + 2 * (roundQ p M * 2 ^ (bitLen M - p) - M)) * 2 ^ e := by
    rw [Nat.add_mul, Nat.mul_assoc 2, Nat.mul_assoc 2, Nat.sub_mul, Nat.sub_mul]
  rw [e2]
  rcases key with h | ⟨h, hd⟩
  · exact Or.inl (Nat.mul_lt_mul_of_pos_right h hE)
  · exact Or.inr ⟨by rw [h], hd⟩

/-- A number with enough zeros at its end is not changed. -/
theorem rounds_self {p M e : Nat} (hp : 0 < p) (h1 : bitLen M ≤ p) : Rounds p (M * 2 ^ e) (M * 2 ^ e) := by
  by_cases h2 : M * 2 ^ e < 2 ^ p
  · exact .inl ⟨h2, rfl⟩
  have hM : M ≠ 0 := by
    rintro rfl
    rw [Nat.zero_mul] at h2
    exact h2 (Nat.two_pow_pos p)
  have hb := bitLen_shift hM e
  have := lt_bitLen.2 (Nat.le_of_not_lt h2)
  obtain ⟨k, hk⟩ : ∃ k, bitLen M + e = p + k := ⟨bitLen M + e - p, by omega⟩
  refine Or.inr ⟨k, M * 2 ^ (e - k), by omega, lt_bitLen.1 (by omega), bitLen_le.1 (by omega), ?_, Or.inl ?_⟩
  · rw [Nat.mul_assoc, ← Nat.pow_add, show e - k + k = e by omega]
  · rw [Nat.sub_self]
    simp [Nat.two_pow_pos]

theorem rounds_exist {p : Nat} (hp : 0 < p) (n : Nat) : ∃ r, Rounds p n r := by
  by_cases h : bitLen n ≤ p
  · exact ⟨n, .inl ⟨bitLen_le.1 h, rfl⟩⟩
  · have := roundQ_to (e := 0) hp (Nat.lt_of_not_le h)
    rw [Nat.pow_zero, Nat.mul_one] at this
    exact ⟨_, this⟩

/-- Rounding does not go below a power of two. -/
theorem rounds_ge {p n r K : Nat} (hp : 0 < p) (h : Rounds p n r) (hK : 2 ^ K ≤ n) : 2 ^ K ≤ r := by
  rcases h with ⟨-, rfl⟩ | ⟨k, q, hk, a1, a2, rfl, a3⟩
  · exact hK
  · have hKk : K ≤ p - 1 + k := by
      apply Nat.le_of_not_lt
      intro h
      have : 2 ^ (p + k) ≤ 2 ^ K := Nat.pow_le_pow_right (by decide) (by omega)
      omega
    refine Nat.le_trans (Nat.pow_le_pow_right (by decide) hKk) ?_
    rw [Nat.pow_add] at a1 ⊢
    apply Nat.mul_le_mul_right
    apply Nat.le_of_not_lt
    intro hq
    have h1 : (q + 1) * 2 ^ k ≤ 2 ^ (p - 1) * 2 ^ k := Nat.mul_le_mul_right _ hq
    rw [Nat.add_mul, Nat.one_mul] at h1
    have hP := Nat.two_pow_pos k
    generalize q * 2 ^ k = A at *
    generalize 2 ^ (p - 1) * 2 ^ k = B at *
    generalize 2 ^ k = P at *
    omega

theorem rounds_ne {p n r : Nat} (hp : 0 < p) (h : Rounds p n r) (h0 : n ≠ 0) : r ≠ 0 := by
  have := rounds_ge (K := 0) hp h (by simp; omega)
  simp at this
  omega

/-! ### The float and its value -/

/-- `a` stands for `n`; infinity for everything from the bound on. -/
def BF.Rel : BF → Nat → Prop
  | .fin m e, n => m ≠ 0 ∧ m * 2 ^ e = n ∧ bitLen m + e ≤ maxExp
  | .inf, n => 2 ^ maxExp ≤ n

theorem rel_ne {a : BF} {n : Nat} (h : a.Rel n) : n ≠ 0 := by
  cases a with
  | fin m e =>
    obtain ⟨h0, rfl, -⟩ := h
    exact Nat.mul_ne_zero h0 (Nat.pos_iff_ne_zero.1 (Nat.two_pow_pos e))
  | inf =>
    have := Nat.two_pow_pos maxExp
    have h : 2 ^ maxExp ≤ n := h
    omega

theorem fin_bound {m e : Nat} (h0 : m ≠ 0) : bitLen m + e ≤ maxExp ↔ ¬ 2 ^ maxExp ≤ m * 2 ^ e := by
  rw [← bitLen_shift h0, bitLen_le, Nat.not_le]

theorem rel_inf {a : BF} {n : Nat} (h : a.Rel n) : a = .inf ↔ 2 ^ maxExp ≤ n := by
  cases a with
  | fin m e =>
    obtain ⟨h0, rfl, h1⟩ := h
    rw [fin_bound h0] at h1
    exact ⟨nofun, fun h => absurd h h1⟩
  | inf => exact ⟨fun _ => h, fun _ => rfl⟩

theorem round_rel {p m e r : Nat} (hp : 0 < p) (h0 : m ≠ 0) (h : Rounds p (m * 2 ^ e) r) : (round p m e).Rel r := by
  by_cases hb : bitLen m ≤ p
  · obtain rfl := rounds_unique hp h (rounds_self hp hb)
    rw [round_exact hb]
    by_cases hx : bitLen m + e > maxExp
    · rw [if_pos hx]
      have := mt (fin_bound (e := e) h0).2 (by omega)
      exact Classical.not_not.1 this
    · rw [if_neg hx]
      exact ⟨h0, rfl, by omega⟩
  · have hb := Nat.lt_of_not_le hb
    obtain rfl := rounds_unique hp h (roundQ_to hp hb)
    have hq : roundQ p m ≠ 0 := by
      intro h
      have := roundQ_bitLen hb
      rw [h] at this
      simp [bitLen] at this
      omega
    rw [round_long hb]
    by_cases hx : bitLen (roundQ p m) + (e + (bitLen m - p)) > maxExp
    · rw [if_pos hx]
      have := mt (fin_bound (e := e + (bitLen m - p)) hq).2 (by omega)
      exact Classical.not_not.1 this
    · rw [if_neg hx]
      exact ⟨hq, rfl, by omega⟩

theorem mul_rel {p : Nat} (hp : 0 < p) {a b : BF} {x y r : Nat} (ha : a.Rel x) (hb : b.Rel y) (h : Rounds p (x * y) r) : (mul p a b).Rel r := by
  have hx := rel_ne ha
  have hy := rel_ne hb
  have big : ∀ {x y : Nat}, y ≠ 0 → 2 ^ maxExp ≤ x → 2 ^ maxExp ≤ x * y := by
    intro x y hy h
    exact Nat.le_trans h (Nat.le_mul_of_pos_right _ (by omega))
  cases a with
  | inf =>
    have : mul p .inf b = .inf := by cases b <;> rfl
    rw [this]
    exact rounds_ge hp h (big hy ha)
  | fin m e =>
    cases b with
    | inf =>
      show 2 ^ maxExp ≤ r
      rw [Nat.mul_comm] at h
      exact rounds_ge hp h (big hx hb)
    | fin m' e' =>
      obtain ⟨h0, rfl, -⟩ := ha
      obtain ⟨h0', rfl, -⟩ := hb
      show (round p (m * m') (e + e')).Rel r
      refine round_rel hp (Nat.mul_ne_zero h0 h0') ?_
      rw [Nat.pow_add, Nat.mul_mul_mul_comm]
      exact h

theorem powSteps_exist (n z f : Nat) : ∃ r, PowSteps n z f r := by
  induction n using Nat.strongRecOn generalizing z f with
  | ind n ih =>
    by_cases h0 : n = 0
    · subst h0; exact ⟨z, .done z f⟩
    obtain ⟨f', hf⟩ := rounds_exist (p := 192) (by decide) (f * f)
    obtain ⟨k, rfl | rfl⟩ : ∃ k, n = 2 * k ∨ n = 2 * k + 1 := ⟨n / 2, by omega⟩
    · obtain ⟨r, hr⟩ := ih k (by omega) z f'
      exact ⟨r, .even (by omega) hf hr⟩
    · obtain ⟨z', hz⟩ := rounds_exist (p := 128) (by decide) (z * f)
      obtain ⟨r, hr⟩ := ih k (by omega) z' f'
      exact ⟨r, .odd hz hf hr⟩

theorem loop_rel {n z f r : Nat} (h : PowSteps n z f r) : ∀ {fuel : Nat} {a b : BF}, n < 2 ^ fuel → a.Rel z → b.Rel f → (pow5Loop fuel n a b).Rel r := by
  induction h with
  | done z f =>
    intro fuel a b _ ha _
    cases fuel with
    | zero => exact ha
    | succ k => simpa [pow5Loop] using ha
  | @even n z f f' r hn hf h ih =>
    intro fuel a b hb ha hB
    cases fuel with
    | zero => simp at hb; omega
    | succ k =>
      unfold pow5Loop
      rw [if_neg (by omega), if_neg (by omega), show 2 * n / 2 = n by omega]
      exact ih (by rw [Nat.pow_succ] at hb; omega) ha (mul_rel (by decide) hB hB hf)
  | @odd n z f z' f' r hz hf h ih =>
    intro fuel a b hb ha hB
    cases fuel with
    | zero => simp at hb
    | succ k =>
      unfold pow5Loop
      rw [if_neg (by omega), if_pos (by omega), show (2 * n + 1) / 2 = n by omega]
      exact ih (by rw [Nat.pow_succ] at hb; omega) (mul_rel (by decide) ha hB hz) (mul_rel (by decide) hB hB hf)

theorem fin_small {m : Nat} (h0 : m ≠ 0) (h : m < 2 ^ 64) : (BF.fin m 0).Rel m := by
  refine ⟨h0, by simp, ?_⟩
  have h1 := bitLen_le.2 h
  have : maxExp = 2147483647 := rfl
  omega

theorem pow5_rel {n w : Nat} (hn : n < 2 ^ 64) (h : Pow5 n w) : (pow5 n).Rel w := by
  unfold pow5
  rcases h with ⟨h1, rfl⟩ | ⟨h1, h⟩
  · rw [if_pos h1]
    refine fin_small (Nat.pos_iff_ne_zero.1 (Nat.pow_pos (by decide))) ?_
    exact Nat.lt_of_le_of_lt (Nat.pow_le_pow_right (by decide) h1) (by decide)
  · rw [if_neg (by omega)]
    exact loop_rel h (by omega) (fin_small (by decide) (by decide)) (fin_small (by decide) (by decide))

theorem pow5_exist (n : Nat) : ∃ w, Pow5 n w := by
  by_cases h : n ≤ 27
  · exact ⟨_, .inl ⟨h, rfl⟩⟩
  · obtain ⟨r, hr⟩ := powSteps_exist (n - 27) (5 ^ 27) 5
    exact ⟨r, .inr ⟨by omega, hr⟩⟩

/-! ### The three outcomes -/

theorem floatBound_eq : floatBound = 2 ^ maxExp := rfl

theorem ofExp_none {m e : Nat} : ofExp m e = none ↔ floatBound ≤ m * 2 ^ e := by
  rw [floatBound_eq]
  by_cases h0 : m = 0
  · subst h0
    rw [Nat.zero_mul]
    have := Nat.two_pow_pos maxExp
    exact ⟨fun h => by simp [ofExp] at h, fun h => absurd h (Nat.not_le.2 this)⟩
  · unfold ofExp
    rw [if_neg h0]
    by_cases h1 : bitLen m + e > maxExp
    · rw [if_pos h1]
      exact ⟨fun _ => Classical.not_not.1 (mt (fin_bound h0).2 (by omega)), fun _ => rfl⟩
    · rw [if_neg h1]
      refine ⟨fun h => ?_, fun h => absurd h ((fin_bound h0).1 (by omega))⟩
      split at h <;> cases h

theorem ofExp_inf_iff {m e : Nat} (he : e < 2 ^ 63) (h : ofExp m e ≠ none) :
    ofExp m e = some .inf ↔ ∃ w r, Pow5 e w ∧ Rounds 64 (m * 2 ^ e * w) r ∧ floatBound ≤ r := by
  by_cases h0 : m = 0
  · subst h0
    constructor
    · intro h; simp [ofExp] at h
    · rintro ⟨w, r, -, hr, hb⟩
      exfalso
      rw [Nat.zero_mul, Nat.zero_mul] at hr
      have := rounds_unique (by decide) hr (.inl ⟨by decide, rfl⟩)
      subst this
      rw [floatBound_eq] at hb
      have := Nat.two_pow_pos maxExp
      exact absurd hb (Nat.not_le.2 this)
  · have h1 : bitLen m + e ≤ maxExp := by
      rw [fin_bound h0]
      exact mt ofExp_none.2 h
    have hE : ∃ a, ofExp m e = some a ∧ ∀ w r, Pow5 e w → Rounds 64 (m * 2 ^ e * w) r → a.Rel r := by
      unfold ofExp
      rw [if_neg h0, if_neg (by omega)]
      by_cases h2 : e = 0
      · subst h2
        rw [if_pos rfl]
        refine ⟨_, rfl, fun w r hw hr => round_rel (by decide) h0 ?_⟩
        rcases hw with ⟨-, rfl⟩ | ⟨h, -⟩
        · simpa using hr
        · omega
      · rw [if_neg h2]
        exact ⟨_, rfl, fun w r hw hr => mul_rel (by decide) ⟨h0, rfl, h1⟩ (pow5_rel (by omega) hw) hr⟩
    obtain ⟨a, ha, hR⟩ := hE
    rw [ha]
    constructor
    · intro h
      injection h with h
      obtain ⟨w, hw⟩ := pow5_exist e
      obtain ⟨r, hr⟩ := rounds_exist (p := 64) (by decide) (m * 2 ^ e * w)
      exact ⟨w, r, hw, hr, (rel_inf (hR w r hw hr)).1 h⟩
    · rintro ⟨w, r, hw, hr, hb⟩
      rw [(rel_inf (hR w r hw hr)).2 hb]

theorem pow5_exact : ∀ e < 43, pow5 e = .fin (5 ^ e) 0 := by decide +kernel

theorem low64_zero {q x : Nat} (h : 64 ≤ x) : low64 q x = 0 := by
  show (if x ≥ 64 then 0 else q * 2 ^ x % 2 ^ 64) = _
  rw [if_pos h]

/-- A finite result, cut to 64 bits, is the rounded value cut to 64 bits. -/
theorem ofExp_value {m e q x : Nat} (h : ofExp m e = some (.fin q x)) (he : e < 2 ^ 63) :
    ∃ r, Rounds64 (m * 10 ^ e) r ∧ (r : Int) % 18446744073709551616 = (low64 q x : Int) % 18446744073709551616 := by
  by_cases h0 : m = 0
  · subst h0
    simp [ofExp] at h
    obtain ⟨rfl, rfl⟩ := h
    exact ⟨0, .inl ⟨by simp, by simp⟩, rfl⟩
  have h1 : bitLen m + e ≤ maxExp := by
    rw [fin_bound h0, ← floatBound_eq, ← ofExp_none, h]
    simp
  have hmul : ofExp m e = some (mul 64 (.fin m e) (pow5 e)) := by
    unfold ofExp
    rw [if_neg h0, if_neg (by omega)]
    by_cases h2 : e = 0
    · subst h2
      rw [if_pos rfl]
      show some (round 64 m 0) = some (round 64 (m * 5 ^ 0) (0 + 0))
      simp
    · rw [if_neg h2]
  rw [hmul] at h
  injection h with h
  by_cases hs : e < 43
  · rw [pow5_exact e hs] at h
    change round 64 (m * 5 ^ e) (e + 0) = _ at h
    have hM : m * 5 ^ e ≠ 0 := Nat.mul_ne_zero h0 (Nat.pos_iff_ne_zero.1 (Nat.pow_pos (by decide)))
    have hN : m * 5 ^ e * 2 ^ e = m * 10 ^ e := by rw [ten_pow, Nat.mul_assoc]
    obtain ⟨r, hr⟩ := rounds_exist (p := 64) (by decide) (m * 5 ^ e * 2 ^ e)
    have hR := round_rel (by decide) hM hr
    rw [Nat.add_zero] at h
    rw [h] at hR
    obtain ⟨-, rfl, -⟩ := hR
    rw [hN] at hr
    refine ⟨_, hr, ?_⟩
    by_cases hx : x < 64
    · exact low64_mod hx
    · rw [low64_zero (by omega)]
      obtain ⟨j, rfl⟩ : ∃ j, x = j + 64 := ⟨x - 64, by omega⟩
      rw [Nat.pow_add, ← Nat.mul_assoc]
      generalize q * 2 ^ j = A
      rw [show (2 : Nat) ^ 64 = 18446744073709551616 by decide]
      omega
  · have hx : 64 ≤ x := by
      have ha := pow5_atLeast (n := e) (by omega)
      cases hp : pow5 e with
      | inf => rw [hp] at h; cases h
      | fin M E =>
        rw [hp] at h ha
        obtain ⟨hM, hb⟩ := ha
        have := (round_exp (show round 64 (m * M) (e + E) = .fin q x from h)).2
        have := bitLen_mul h0 hM
        have := bitLen_pos h0
        omega
    rw [low64_zero hx]
    obtain ⟨r, hr⟩ := rounds_exist (p := 64) (by decide) (m * 10 ^ e)
    refine ⟨r, hr, ?_⟩
    have hbig : 2 ^ 128 ≤ m * 10 ^ e := by
      refine Nat.le_trans (show 2 ^ 128 ≤ 10 ^ 43 by decide) ?_
      refine Nat.le_trans (Nat.pow_le_pow_right (by decide) (by omega)) (Nat.le_mul_of_pos_left _ (by omega))
    rcases hr with ⟨hr, -⟩ | ⟨k, q', hk, a1, a2, rfl, -⟩
    · exact absurd hr (Nat.not_lt.2 (Nat.le_trans (by decide) hbig))
    · have hk : 64 < k := by
        apply Nat.lt_of_not_le
        intro hk
        have : 2 ^ (64 + k) ≤ 2 ^ 128 := Nat.pow_le_pow_right (by decide) (by omega)
        exact absurd a2 (Nat.not_lt.2 (Nat.le_trans this hbig))
      obtain ⟨j, rfl⟩ : ∃ j, k = j + 64 := ⟨k - 64, by omega⟩
      rw [Nat.pow_add, ← Nat.mul_assoc]
      generalize q' * 2 ^ j = A
      rw [show (2 : Nat) ^ 64 = 18446744073709551616 by decide]
      omega

theorem expTail_cases (neg : Bool) (nt : Str) (q x : Nat) :
    expTail neg nt (some (.fin q x)) = .err (.unsupported (c! "exponential notation") nt) ∨ ∃ v, expTail neg nt (some (.fin q x)) = .ok v := by
  simp only [expTail]
  generalize (if neg then wrap64 (-(wrap64 (low64 q x))) else wrap64 (low64 q x)) = w
  by_cases h : w > MAX_YEARS ∨ w < 0 - MAX_YEARS
  · rw [if_pos h]; exact .inl rfl
  · rw [if_neg h]; exact .inr ⟨w, rfl⟩

/-- What exponential notation gives. -/
theorem exp_cases (neg : Bool) {ec : Char} (hec : ec = 'E' ∨ ec = 'e') {ms es : List Nat} (hm : Digits ms) (he : Digits es) :
    (TooLarge ms es ∧ parseExponentialNotation (sgn neg (ms.map dig ++ ec :: es.map dig)) = .err .plain) ∨
    (¬ TooLarge ms es ∧ Overflows ms es ∧ parseExponentialNotation (sgn neg (ms.map dig ++ ec :: es.map dig)) = .panic) ∨
    (¬ TooLarge ms es ∧ ¬ Overflows ms es ∧ (¬ ∃ v, ExpYear neg ms es v) ∧
      parseExponentialNotation (sgn neg (ms.map dig ++ ec :: es.map dig)) =
        .err (.unsupported (c! "exponential notation") (sgn neg (ms.map dig ++ ec :: es.map dig)))) ∨
    (∃ v, ExpReads neg ms es v ∧ parseExponentialNotation (sgn neg (ms.map dig ++ ec :: es.map dig)) = .ok v) := by
  rw [exponential_eq neg hec (all_dig hm.2) (by simpa using hm.1) (all_dig he.2) (by simpa using he.1), digitsVal_map _ hm.2, digitsVal_map _ he.2]
  by_cases hs : 2 ^ 63 ≤ value10 es
  · exact .inl ⟨.inl hs, by rw [if_pos hs]⟩
  rw [if_neg hs]
  by_cases hn : ofExp (value10 ms) (value10 es) = none
  · exact .inl ⟨.inr (ofExp_none.1 hn), by rw [hn]; rfl⟩
  have hT : ¬ TooLarge ms es := by
    rintro (h | h)
    · exact hs h
    · exact hn (ofExp_none.2 h)
  refine .inr ?_
  by_cases hi : ofExp (value10 ms) (value10 es) = some .inf
  · exact .inl ⟨hT, (ofExp_inf_iff (by omega) hn).1 hi, by rw [hi]; rfl⟩
  have hO : ¬ Overflows ms es := mt (ofExp_inf_iff (by omega) hn).2 hi
  refine .inr ?_
  match ho : ofExp (value10 ms) (value10 es) with
  | none => exact absurd ho hn
  | some .inf => exact absurd ho hi
  | some (.fin q x) =>
    obtain ⟨r, hr, hmod⟩ := ofExp_value ho (by omega)
    have iff : ∀ v, expTail neg (sgn neg (ms.map dig ++ ec :: es.map dig)) (some (.fin q x)) = .ok v ↔ ExpYear neg ms es v := by
      intro v
      rw [expTail_iff]
      constructor
      · rintro ⟨h1, h2, h3⟩
        exact ⟨by omega, h1, h2, r, hr, (wrap_value hmod h1 h2).1 h3⟩
      · rintro ⟨-, h1, h2, r', hr', h3⟩
        obtain rfl := rounds64_unique hr hr'
        exact ⟨h1, h2, (wrap_value hmod h1 h2).2 h3⟩
    by_cases hv : ∃ v, ExpYear neg ms es v
    · obtain ⟨v, hv⟩ := hv
      exact .inr ⟨v, ⟨hT, hO, hv⟩, (iff v).2 hv⟩
    · refine .inl ⟨hT, hO, hv, ?_⟩
      rcases expTail_cases neg (sgn neg (ms.map dig ++ ec :: es.map dig)) q x with h | ⟨v, h⟩
      · exact h
      · exact absurd ⟨v, (iff v).1 h⟩ hv

theorem exp_ok_iff (neg : Bool) {ec : Char} (hec : ec = 'E' ∨ ec = 'e') {ms es : List Nat} (hm : Digits ms) (he : Digits es) {v : Int} :
    parseExponentialNotation (sgn neg (ms.map dig ++ ec :: es.map dig)) = .ok v ↔ ExpReads neg ms es v := by
  have uniq : ∀ {v w}, ExpYear neg ms es v → ExpYear neg ms es w → v = w := by
    rintro v w ⟨-, a1, a2, r, hr, h⟩ ⟨-, b1, b2, r', hr', h'⟩
    obtain rfl := rounds64_unique hr hr'
    rw [show (2 ^ 64 : Int) = 18446744073709551616 from rfl] at h h'
    omega
  rcases exp_cases neg hec hm he with ⟨h, e⟩ | ⟨h1, h2, e⟩ | ⟨h1, h2, h3, e⟩ | ⟨w, hw, e⟩ <;> rw [e]
  · exact ⟨nofun, fun h' => absurd h h'.1⟩
  · exact ⟨nofun, fun h' => absurd h2 h'.2.1⟩
  · exact ⟨nofun, fun h' => absurd ⟨v, h'.2.2⟩ h3⟩
  · constructor
    · intro h; injection h with h; rw [← h]; exact hw
    · intro h; rw [uniq hw.2.2 h.2.2]

theorem exp_err_iff (neg : Bool) {ec : Char} (hec : ec = 'E' ∨ ec = 'e') {ms es : List Nat} (hm : Digits ms) (he : Digits es) {e : Err} :
    parseExponentialNotation (sgn neg (ms.map dig ++ ec :: es.map dig)) = .err e ↔ ExpFails neg ms es (sgn neg (ms.map dig ++ ec :: es.map dig)) e := by
  rcases exp_cases neg hec hm he with ⟨h, e1⟩ | ⟨h1, h2, e1⟩ | ⟨h1, h2, h3, e1⟩ | ⟨w, hw, e1⟩ <;> rw [e1]
  · constructor
    · intro h'; injection h' with h'; rw [← h']; exact .large h
    · rintro (_ | ⟨h', -, -⟩)
      · rfl
      · exact absurd h h'
  · constructor
    · intro h'; cases h'
    · rintro (h' | ⟨-, h', -⟩)
      · exact absurd h' h1
      · exact absurd h2 h'
  · constructor
    · intro h'; injection h' with h'; rw [← h']; exact .unsupported h1 h2 h3
    · rintro (h' | _)
      · exact absurd h' h1
      · rfl
  · constructor
    · intro h'; cases h'
    · rintro (h' | ⟨-, -, h'⟩)
      · exact absurd h' hw.1
      · exact absurd ⟨w, hw.2.2⟩ h'

theorem exp_panic_iff (neg : Bool) {ec : Char} (hec : ec = 'E' ∨ ec = 'e') {ms es : List Nat} (hm : Digits ms) (he : Digits es) :
    parseExponentialNotation (sgn neg (ms.map dig ++ ec :: es.map dig)) = .panic ↔ ¬ TooLarge ms es ∧ Overflows ms es := by
  rcases exp_cases neg hec hm he with ⟨h, e1⟩ | ⟨h1, h2, e1⟩ | ⟨h1, h2, h3, e1⟩ | ⟨w, hw, e1⟩ <;> rw [e1]
  · exact ⟨nofun, fun h' => absurd h h'.1⟩
  · exact ⟨fun _ => ⟨h1, h2⟩, fun _ => rfl⟩
  · exact ⟨nofun, fun h' => absurd h'.2 h2⟩
  · exact ⟨nofun, fun h' => absurd h'.2 hw.2.1⟩

end EDTF
