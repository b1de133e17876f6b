/- C106: the values of numbers. -/
import Verif.PropsFloat
import Verif.LemmasFail4
namespace EDTF
open Spec BF

/-- The integer part of a float. -/
def wholePart (m : Nat) (x : Int) : Nat := if 0 ≤ x then m * 2 ^ x.toNat else m / 2 ^ x.natAbs

theorem low64_whole {m : Nat} {x : Int} (h : wholePart m x < 2 ^ 64) : Fl.low64 m x = wholePart m x := by
  unfold Fl.low64 wholePart at *
  by_cases hx : 0 ≤ x
  · rw [if_pos hx] at h ⊢
    rw [if_pos hx]
    exact low64_exact rfl h
  · rw [if_neg hx] at h ⊢
    rw [if_neg hx]
    exact Nat.mod_eq_of_lt h

theorem roundQ_whole {prec m : Nat} (h : m % 2 ^ (bitLen m - prec) = 0) (hp : prec < bitLen m) : roundQ prec m = m / 2 ^ (bitLen m - prec) := by
  unfold roundQ
  simp only [h]
  have : 0 < 2 ^ (bitLen m - prec - 1) := Nat.two_pow_pos _
  rw [if_neg (by omega), if_pos this]

/-- Rounding to a mantissa of 64 bits does not leave an interval with such ends. -/
theorem round_neg {m k u L U : Nat} (h1 : L * 2 ^ k ≤ m) (h2 : m * 2 ^ u ≤ U * 2 ^ k) (hU : U < 2 ^ 63) :
    ∃ q x, Fl.round 64 m (-(k : Int)) = .fin q x ∧ L ≤ wholePart q x ∧ wholePart q x * 2 ^ u ≤ U := by
  have hmax : maxExp = 2 ^ 31 - 1 := rfl
  have hmin : Fl.minExp = -2 ^ 31 := rfl
  have pu : 0 < 2 ^ u := Nat.two_pow_pos _
  have pk : 0 < 2 ^ k := Nat.two_pow_pos _
  have hmb : m < 2 ^ (63 + k) := by
    have a1 : m * 1 ≤ m * 2 ^ u := Nat.mul_le_mul_left _ pu
    have a2 : U * 2 ^ k < 2 ^ 63 * 2 ^ k := Nat.mul_lt_mul_of_pos_right hU pk
    rw [Nat.pow_add]
    omega
  have hb : bitLen m ≤ 63 + k := bitLen_le.2 hmb
  have hlow : L ≠ 0 → k < bitLen m := by
    intro h0
    apply lt_bitLen.2
    have : 1 * 2 ^ k ≤ L * 2 ^ k := Nat.mul_le_mul_right _ (by omega)
    omega
  unfold Fl.round
  by_cases hs : bitLen m ≤ 64
  · rw [roundMant_short hs]
    simp only
    rw [if_neg (by omega)]
    by_cases hz : (bitLen m : Int) + (-(k : Int) + ((0 : Nat) : Int)) < Fl.minExp
    · rw [if_pos hz]
      refine ⟨0, 0, rfl, ?_, ?_⟩
      · apply Nat.le_of_not_lt
        intro h
        have := hlow (by omega)
        omega
      · simp [wholePart]
    · rw [if_neg hz]
      refine ⟨m, _, rfl, ?_⟩
      have hw : wholePart m (-(k : Int) + ((0 : Nat) : Int)) = m / 2 ^ k := by
        unfold wholePart
        by_cases k0 : k = 0
        · subst k0; simp
        · rw [if_neg (by omega), show (-(k : Int) + ((0 : Nat) : Int)).natAbs = k by omega]
      rw [hw]
      refine ⟨(Nat.le_div_iff_mul_le pk).2 h1, ?_⟩
      have : m / 2 ^ k * 2 ^ u * 2 ^ k ≤ U * 2 ^ k := by
        have a : m / 2 ^ k * 2 ^ k ≤ m := Nat.div_mul_le_self _ _
        calc m / 2 ^ k * 2 ^ u * 2 ^ k = m / 2 ^ k * 2 ^ k * 2 ^ u := by rw [Nat.mul_right_comm]
          _ ≤ m * 2 ^ u := Nat.mul_le_mul_right _ a
          _ ≤ U * 2 ^ k := h2
      exact Nat.le_of_mul_le_mul_right this pk
  · have hs' : 64 < bitLen m := by omega
    rw [roundMant_long hs']
    simp only
    have hq := roundQ_bounds 64 m
    have hex := @roundQ_whole 64 m
    have hq64 := roundQ_bitLen hs'
    generalize hj : bitLen m - 64 = j at *
    have pj : 0 < 2 ^ j := Nat.two_pow_pos _
    have hm64 : 2 ^ 64 ≤ m := lt_bitLen.1 hs'
    have huk : u ≤ k := by
      apply Nat.le_of_not_lt
      intro h
      have a1 : 2 ^ 64 * 2 ^ u ≤ m * 2 ^ u := Nat.mul_le_mul_right _ hm64
      have a2 : 2 ^ k ≤ 2 ^ u := Nat.pow_le_pow_right (by decide) (by omega)
      have a3 : U * 2 ^ k ≤ U * 2 ^ u := Nat.mul_le_mul_left _ a2
      have a4 : U * 2 ^ u < 2 ^ 64 * 2 ^ u := Nat.mul_lt_mul_of_pos_right (by omega) pu
      omega
    obtain ⟨y, rfl⟩ : ∃ y, k = u + y := ⟨k - u, by omega⟩
    have h2' : m ≤ U * 2 ^ y := by
      have : m * 2 ^ u ≤ U * 2 ^ y * 2 ^ u := by
        rw [Nat.mul_assoc, ← Nat.pow_add, Nat.add_comm y u]; exact h2
      exact Nat.le_of_mul_le_mul_right this pu
    have hjy : j ≤ y := by
      have : m < 2 ^ (63 + y) := by
        rw [Nat.pow_add]
        exact Nat.lt_of_le_of_lt h2' (Nat.mul_lt_mul_of_pos_right hU (Nat.two_pow_pos _))
      have := bitLen_le.2 this
      omega
    obtain ⟨z, rfl⟩ : ∃ z, y = j + z := ⟨y - j, by omega⟩
    have pz : 0 < 2 ^ z := Nat.two_pow_pos _
    -- the ends of the interval
    have lo : L * 2 ^ (u + z) ≤ roundQ 64 m := by
      refine Nat.le_trans ((Nat.le_div_iff_mul_le pj).2 ?_) hq.1
      rw [Nat.mul_assoc, ← Nat.pow_add, show u + z + j = u + (j + z) by omega]
      exact h1
    have hi : roundQ 64 m ≤ U * 2 ^ z := by
      have e : U * 2 ^ (j + z) = U * 2 ^ z * 2 ^ j := by rw [Nat.mul_assoc, ← Nat.pow_add, Nat.add_comm]
      rw [e] at h2'
      have a1 : m / 2 ^ j ≤ U * 2 ^ z := by
        apply Nat.le_of_mul_le_mul_right (Nat.le_trans (Nat.div_mul_le_self _ _) h2') pj
      by_cases heq : m / 2 ^ j = U * 2 ^ z
      · have a2 : m = U * 2 ^ z * 2 ^ j := by
          have := Nat.div_mul_le_self m (2 ^ j)
          rw [heq] at this
          omega
        have a3 : m % 2 ^ j = 0 := by rw [a2]; exact Nat.mul_mod_left _ _
        rw [hex a3 hs']
        omega
      · omega
    have hqb : bitLen (roundQ 64 m) ≤ 65 + (u + z) := by
      apply bitLen_le.2
      have a1 : U * 2 ^ z < 2 ^ 63 * 2 ^ z := Nat.mul_lt_mul_of_pos_right hU pz
      have a2 : (2 : Nat) ^ 63 * 2 ^ z ≤ 2 ^ (65 + (u + z)) := by
        rw [← Nat.pow_add]; exact Nat.pow_le_pow_right (by decide) (by omega)
      omega
    rw [if_neg (by omega)]
    by_cases hz : (bitLen (roundQ 64 m) : Int) + (-((u + (j + z) : Nat) : Int) + (j : Int)) < Fl.minExp
    · rw [if_pos hz]
      refine ⟨0, 0, rfl, ?_, ?_⟩
      · apply Nat.le_of_not_lt
        intro h
        have := hlow (by omega)
        omega
      · simp [wholePart]
    · rw [if_neg hz]
      refine ⟨_, _, rfl, ?_⟩
      have hw : wholePart (roundQ 64 m) (-((u + (j + z) : Nat) : Int) + (j : Int)) = roundQ 64 m / 2 ^ (u + z) := by
        unfold wholePart
        by_cases k0 : u + z = 0
        · rw [if_pos (by omega), show (-((u + (j + z) : Nat) : Int) + (j : Int)).toNat = 0 by omega, k0]; simp
        · rw [if_neg (by omega), show (-((u + (j + z) : Nat) : Int) + (j : Int)).natAbs = u + z by omega]
      rw [hw]
      refine ⟨(Nat.le_div_iff_mul_le (Nat.two_pow_pos _)).2 lo, ?_⟩
      have : roundQ 64 m / 2 ^ (u + z) * 2 ^ u * 2 ^ z ≤ U * 2 ^ z := by
        rw [Nat.mul_assoc, ← Nat.pow_add]
        exact Nat.le_trans (Nat.div_mul_le_self _ _) hi
      exact Nat.le_of_mul_le_mul_right this pz

theorem round_within {m a b u L U : Nat} {e : Int} (hm0 : m ≠ 0) (he : e = a - b) (h1 : L * 2 ^ b ≤ m * 2 ^ a) (h2 : m * 2 ^ a * 2 ^ u ≤ U * 2 ^ b) (hU : U < 2 ^ 63) :
    ∃ q x, Fl.round 64 m e = .fin q x ∧ L ≤ wholePart q x ∧ wholePart q x * 2 ^ u ≤ U := by
  by_cases hab : a ≤ b
  · obtain ⟨k, rfl⟩ : ∃ k, b = a + k := ⟨b - a, by omega⟩
    have pa : 0 < 2 ^ a := Nat.two_pow_pos _
    rw [show e = -(k : Int) by omega]
    refine round_neg (L := L) (U := U) (u := u) ?_ ?_ hU
    · have : L * 2 ^ k * 2 ^ a ≤ m * 2 ^ a := by rw [Nat.mul_assoc, ← Nat.pow_add, Nat.add_comm]; exact h1
      exact Nat.le_of_mul_le_mul_right this pa
    · have : m * 2 ^ u * 2 ^ a ≤ U * 2 ^ k * 2 ^ a := by
        rw [Nat.mul_assoc U, ← Nat.pow_add, Nat.add_comm k, Nat.mul_right_comm]; exact h2
      exact Nat.le_of_mul_le_mul_right this pa
  · obtain ⟨n, rfl⟩ : ∃ n, a = b + n := ⟨a - b, by omega⟩
    have pb : 0 < 2 ^ b := Nat.two_pow_pos _
    have e1 : m * 2 ^ (b + n) = m * 2 ^ n * 2 ^ b := by rw [Nat.mul_assoc, ← Nat.pow_add, Nat.add_comm n]
    have g1 : L ≤ m * 2 ^ n := Nat.le_of_mul_le_mul_right (e1 ▸ h1) pb
    have g2 : m * 2 ^ n * 2 ^ u ≤ U := by
      have : m * 2 ^ n * 2 ^ u * 2 ^ b ≤ U * 2 ^ b := by rw [Nat.mul_right_comm, ← e1]; exact h2
      exact Nat.le_of_mul_le_mul_right this pb
    have hv : m * 2 ^ n < 2 ^ 63 := by
      have : m * 2 ^ n * 1 ≤ m * 2 ^ n * 2 ^ u := Nat.mul_le_mul_left _ (Nat.two_pow_pos _)
      omega
    rw [show e = (n : Int) by omega, round_toFl]
    have hm : m < 2 ^ 63 := by
      have : m * 1 ≤ m * 2 ^ n := Nat.mul_le_mul_left _ (Nat.two_pow_pos _)
      omega
    have hb : bitLen m ≤ 63 := bitLen_le.2 hm
    rw [round_exact (show bitLen m ≤ 64 by omega)]
    have hn : n < 63 := by
      apply Nat.lt_of_not_le
      intro h
      have a1 : (2 : Nat) ^ 63 ≤ 2 ^ n := Nat.pow_le_pow_right (by decide) h
      have a2 : 1 * 2 ^ n ≤ m * 2 ^ n := Nat.mul_le_mul_right _ (by omega)
      omega
    have hmax : maxExp = 2 ^ 31 - 1 := rfl
    rw [if_neg (by omega)]
    refine ⟨m, n, rfl, ?_⟩
    have hw : wholePart m (n : Int) = m * 2 ^ n := by unfold wholePart; rw [if_pos (by omega)]; rfl
    rw [hw]
    exact ⟨g1, g2⟩

/-- Up to 2^64 the float is exact. -/
theorem ofExp_whole {m e : Nat} (h : m * 10 ^ e < 2 ^ 64) : ∃ q x, ofExp m e = some (.fin q x) ∧ q * 2 ^ x = m * 10 ^ e := by
  unfold ofExp
  by_cases hm : m = 0
  · subst hm
    exact ⟨0, 0, if_pos rfl, by simp⟩
  rw [if_neg hm]
  have he : e < 20 := by
    apply Nat.lt_of_not_le
    intro h20
    have h1 : 10 ^ 20 ≤ 10 ^ e := Nat.pow_le_pow_right (by decide) h20
    have h2 : 1 * 10 ^ e ≤ m * 10 ^ e := Nat.mul_le_mul_right _ (by omega)
    have h3 : (2 : Nat) ^ 64 ≤ 10 ^ 20 := by decide
    omega
  have h1 : m ≤ m * 10 ^ e := Nat.le_mul_of_pos_right _ (Nat.pow_pos (by decide))
  have b1 : bitLen m ≤ 64 := bitLen_le.2 (by omega)
  have hmax : maxExp = 2 ^ 31 - 1 := rfl
  rw [if_neg (by omega)]
  by_cases h0 : e = 0
  · subst h0
    refine ⟨m, 0, ?_, by simp⟩
    rw [if_pos rfl, round_exact b1, if_neg (by omega)]
  · rw [if_neg h0]
    have h2 : m * 5 ^ e * 2 ^ e = m * 10 ^ e := by rw [ten_pow, Nat.mul_assoc]
    have h3 : m * 5 ^ e ≤ m * 5 ^ e * 2 ^ e := Nat.le_mul_of_pos_right _ (Nat.pow_pos (by decide))
    have b2 : bitLen (m * 5 ^ e) ≤ 64 := bitLen_le.2 (by omega)
    refine ⟨m * 5 ^ e, e, ?_, h2⟩
    unfold pow5 mul
    rw [if_pos (by omega)]
    simp only [Nat.add_zero]
    rw [round_exact b2, if_neg (by omega)]

/-- A quotient with a bit for the remainder. -/
theorem quo_within {m a b p u L U : Nat} {e : Int} (hm0 : m ≠ 0) (hp : p ≠ 0) (hu : u ≤ 64) (he : e = a - b) (h1 : L * (p * 2 ^ b) ≤ m * 2 ^ a)
    (h2 : m * 2 ^ a * 2 ^ u ≤ U * (p * 2 ^ b)) (hU : U < 2 ^ 63) :
    ∃ q x, Fl.quo 64 m e p 0 = .fin q x ∧ L ≤ wholePart q x ∧ wholePart q x * 2 ^ u ≤ U := by
  unfold Fl.quo
  simp only
  generalize hs : 2 * 64 + bitLen p = s
  have hpb := lt_two_pow_bitLen p
  have pa : 0 < 2 ^ a := Nat.two_pow_pos _
  have pb : 0 < 2 ^ b := Nat.two_pow_pos _
  have ha : a < 63 + bitLen p + b := by
    apply Nat.lt_of_not_le
    intro h
    have a1 : 2 ^ (63 + bitLen p + b) ≤ 2 ^ a := Nat.pow_le_pow_right (by decide) h
    have a2 : 1 * 2 ^ a ≤ m * 2 ^ a := Nat.mul_le_mul_right _ (by omega)
    have a3 : m * 2 ^ a * 1 ≤ m * 2 ^ a * 2 ^ u := Nat.mul_le_mul_left _ (Nat.two_pow_pos _)
    have a4 : p * 2 ^ b < 2 ^ bitLen p * 2 ^ b := Nat.mul_lt_mul_of_pos_right hpb pb
    have a5 : U * (p * 2 ^ b) ≤ 2 ^ 63 * (p * 2 ^ b) := Nat.mul_le_mul_right _ (by omega)
    have a6 : 2 ^ 63 * (p * 2 ^ b) < 2 ^ 63 * (2 ^ bitLen p * 2 ^ b) := Nat.mul_lt_mul_of_pos_left a4 (by decide)
    have a7 : 2 ^ (63 + bitLen p + b) = 2 ^ 63 * (2 ^ bitLen p * 2 ^ b) := by rw [Nat.pow_add, Nat.pow_add, Nat.mul_assoc]
    omega
  obtain ⟨y, hy⟩ : ∃ y, b + s = a + u + y := ⟨b + s - a - u, by omega⟩
  have pp : 0 < p := Nat.pos_of_ne_zero hp
  -- the quotient is in the interval
  have lo : L * 2 ^ (u + y) ≤ m * 2 ^ s / p := by
    apply (Nat.le_div_iff_mul_le pp).2
    have : L * 2 ^ (u + y) * p * 2 ^ a ≤ m * 2 ^ s * 2 ^ a := by
      calc L * 2 ^ (u + y) * p * 2 ^ a = L * p * (2 ^ (u + y) * 2 ^ a) := by ac_rfl
        _ = L * p * (2 ^ b * 2 ^ s) := by rw [← Nat.pow_add, ← Nat.pow_add, show u + y + a = b + s by omega]
        _ = L * (p * 2 ^ b) * 2 ^ s := by ac_rfl
        _ ≤ m * 2 ^ a * 2 ^ s := Nat.mul_le_mul_right _ h1
        _ = m * 2 ^ s * 2 ^ a := by ac_rfl
    exact Nat.le_of_mul_le_mul_right this pa
  have hi : m * 2 ^ s ≤ U * 2 ^ y * p := by
    have : m * 2 ^ s * (2 ^ a * 2 ^ u) ≤ U * 2 ^ y * p * (2 ^ a * 2 ^ u) := by
      calc m * 2 ^ s * (2 ^ a * 2 ^ u) = m * 2 ^ a * 2 ^ u * 2 ^ s := by ac_rfl
        _ ≤ U * (p * 2 ^ b) * 2 ^ s := Nat.mul_le_mul_right _ h2
        _ = U * p * (2 ^ b * 2 ^ s) := by ac_rfl
        _ = U * p * (2 ^ (a + u) * 2 ^ y) := by rw [← Nat.pow_add, ← Nat.pow_add, show b + s = a + u + y by omega]
        _ = U * 2 ^ y * p * (2 ^ a * 2 ^ u) := by rw [Nat.pow_add]; ac_rfl
    exact Nat.le_of_mul_le_mul_right this (Nat.mul_pos pa (Nat.two_pow_pos _))
  have hq : m * 2 ^ s / p ≤ U * 2 ^ y := by
    have := Nat.div_mul_le_self (m * 2 ^ s) p
    exact Nat.le_of_mul_le_mul_right (Nat.le_trans this hi) pp
  have hM : 2 * (m * 2 ^ s / p) + (if m * 2 ^ s % p = 0 then 0 else 1) ≤ 2 * (U * 2 ^ y) := by
    by_cases hr : m * 2 ^ s % p = 0
    · rw [if_pos hr]; omega
    · rw [if_neg hr]
      have : m * 2 ^ s / p ≠ U * 2 ^ y := by
        intro k
        have := Nat.div_add_mod (m * 2 ^ s) p
        rw [k, Nat.mul_comm p] at this
        omega
      omega
  have hq0 : m * 2 ^ s / p ≠ 0 := by
    have : p * 1 ≤ 2 ^ s * 1 := by
      have : 2 ^ bitLen p ≤ 2 ^ s := Nat.pow_le_pow_right (by decide) (by omega)
      omega
    have k : 1 * 2 ^ s ≤ m * 2 ^ s := Nat.mul_le_mul_right _ (by omega)
    have := (Nat.le_div_iff_mul_le pp (x := 1) (y := m * 2 ^ s)).2 (by omega)
    omega
  refine round_within (a := 0) (b := u + y + 1) (u := u) (L := L) (U := U) (by omega) (by omega) ?_ ?_ hU
  · rw [Nat.pow_succ, ← Nat.mul_assoc]
    omega
  · have e1 : U * 2 ^ (u + y + 1) = 2 * (U * 2 ^ y) * 2 ^ u := by rw [Nat.pow_succ, Nat.pow_add]; ac_rfl
    rw [e1]
    simp only [Nat.pow_zero, Nat.mul_one]
    exact Nat.mul_le_mul_right _ hM

/-- The number that the digits and the exponent stand for, if its power of five is exact. -/
theorem ofParts_within {ds : List Nat} {d u L U : Nat} {bin : Bool} {e : Int} {f : Fl} (hf : Fl.ofParts (value10 ds) d bin e = some f) (hu : u ≤ 64)
    (h42 : if bin then d ≤ 42 else (d : Int) - e ≤ 42) (h1 : L * bottom d bin e ≤ top ds bin e) (h2 : top ds bin e * 2 ^ u ≤ U * bottom d bin e)
    (hU : U < 2 ^ 63) : ∃ q x, f = .fin q x ∧ L ≤ wholePart q x ∧ wholePart q x * 2 ^ u ≤ U := by
  have pbot : 0 < bottom d bin e := by
    unfold bottom base
    cases bin <;> exact Nat.mul_pos (Nat.pow_pos (by decide)) (Nat.pow_pos (by decide))
  have htop : top ds bin e = value10 ds * base bin ^ e.toNat := rfl
  rw [htop] at h1 h2
  generalize value10 ds = m at *
  by_cases hm : m = 0
  · subst hm
    have : f = .fin 0 0 := by
      unfold Fl.ofParts at hf
      rw [if_pos rfl] at hf
      injection hf with hf
      exact hf.symm
    refine ⟨0, 0, this, ?_, by simp [wholePart]⟩
    rw [Nat.zero_mul] at h1
    have : L = 0 := by
      rcases Nat.mul_eq_zero.1 (Nat.le_zero.1 h1) with k | k
      · exact k
      · omega
    omega
  by_cases hn : bin = false ∧ 0 ≤ e - d
  · -- an integer
    obtain ⟨rfl, hn⟩ := hn
    obtain ⟨n, hn⟩ : ∃ n : Nat, e - d = n := ⟨(e - d).toNat, by omega⟩
    rw [ofParts_nat hn] at hf
    have e1 : m * 10 ^ e.toNat = m * 10 ^ n * 10 ^ d := by
      rw [Nat.mul_assoc, ← Nat.pow_add, show e.toNat = n + d by omega]
    have e2 : bottom d false e = 10 ^ d := by
      show 10 ^ d * 10 ^ (-e).toNat = _
      rw [show (-e).toNat = 0 by omega, Nat.pow_zero, Nat.mul_one]
    have e3 : base false = 10 := rfl
    rw [e2, e3, e1] at h1 h2
    have pd : 0 < 10 ^ d := Nat.pow_pos (by decide)
    have g1 := Nat.le_of_mul_le_mul_right h1 pd
    have g2 : m * 10 ^ n * 2 ^ u ≤ U := by
      rw [Nat.mul_right_comm] at h2
      exact Nat.le_of_mul_le_mul_right h2 pd
    have hv : m * 10 ^ n < 2 ^ 63 := by
      have : m * 10 ^ n * 1 ≤ m * 10 ^ n * 2 ^ u := Nat.mul_le_mul_left _ (Nat.two_pow_pos _)
      omega
    obtain ⟨q, x, k1, k2⟩ := ofExp_whole (m := m) (e := n) (by omega)
    rw [k1] at hf
    injection hf with hf
    refine ⟨q, x, hf.symm, ?_⟩
    have : wholePart q (x : Int) = m * 10 ^ n := by
      unfold wholePart
      rw [if_pos (by omega), Int.toNat_natCast, k2]
    rw [this]
    exact ⟨g1, g2⟩
  unfold Fl.ofParts at hf
  rw [if_neg hm] at hf
  simp only at hf
  by_cases hr : (bitLen m : Int) + (e - d) < Fl.minExp ∨ (bitLen m : Int) + (e - d) > maxExp
  · rw [if_pos hr] at hf; cases hf
  rw [if_neg hr] at hf
  cases bin with
  | true =>
    simp only [if_true] at hf h42
    have e2 : bottom d true e = 5 ^ d * 2 ^ (d + (-e).toNat) := by
      show 10 ^ d * 2 ^ (-e).toNat = _
      rw [ten_pow, Nat.pow_add, Nat.mul_assoc]
    have e3 : base true = 2 := rfl
    rw [e2, e3] at h1 h2
    by_cases d0 : d = 0
    · subst d0
      rw [if_pos (by simp)] at hf
      injection hf with hf
      rw [← hf]
      simp only [Nat.pow_zero, Nat.one_mul, Nat.zero_add] at h1 h2
      exact round_within hm (a := e.toNat) (b := (-e).toNat) (by omega) h1 h2 hU
    · rw [if_neg (by omega), show (-(d : Int)).natAbs = d by omega, pow5_exact d (by omega)] at hf
      simp only [if_pos (show -(d : Int) < 0 by omega)] at hf
      injection hf with hf
      rw [← hf]
      exact quo_within hm (Nat.ne_of_gt (Nat.pow_pos (by decide))) hu (a := e.toNat) (b := d + (-e).toNat) (by omega) h1 h2 hU
  | false =>
    simp only [if_neg (show ¬ false = true by decide)] at hf h42
    have hneg : ¬ 0 ≤ e - (d : Int) := fun k => hn ⟨rfl, k⟩
    obtain ⟨n, hn⟩ : ∃ n : Nat, e - d = -(n : Int) := ⟨(d - e).toNat, by omega⟩
    have hn0 : n ≠ 0 := by
      rintro rfl
      omega
    have e2 : bottom d false e = 5 ^ n * 2 ^ n * 10 ^ e.toNat := by
      show 10 ^ d * 10 ^ (-e).toNat = _
      rw [← ten_pow, ← Nat.pow_add, ← Nat.pow_add, show d + (-e).toNat = n + e.toNat by omega]
    have e3 : base false = 10 := rfl
    rw [e2, e3] at h1 h2
    have pd : 0 < 10 ^ e.toNat := Nat.pow_pos (by decide)
    rw [← Nat.mul_assoc] at h1 h2
    have g1 := Nat.le_of_mul_le_mul_right h1 pd
    have g2 : m * 2 ^ u ≤ U * (5 ^ n * 2 ^ n) := by
      rw [Nat.mul_right_comm] at h2
      exact Nat.le_of_mul_le_mul_right h2 pd
    rw [hn, if_neg (by omega), show (-(n : Int)).natAbs = n by omega, pow5_exact n (by omega)] at hf
    simp only [if_pos (show -(n : Int) < 0 by omega)] at hf
    injection hf with hf
    rw [← hf]
    exact quo_within hm (Nat.ne_of_gt (Nat.pow_pos (by decide))) hu (a := 0) (b := n) (by omega) (by simpa using g1) (by simpa using g2) hU

end EDTF
