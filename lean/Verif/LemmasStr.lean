/- Lemmas about digits, decimal text and string helpers. -/
import Verif.LemmasCal
namespace EDTF
open Spec

/-! ### Digits -/

theorem dig_digChar : ∀ n, n < 10 → dig n = digChar n := by decide
theorem isDig_dig_lt : ∀ n, n < 10 → isDig (dig n) = true := by decide
theorem digVal_dig_lt : ∀ n, n < 10 → digVal (dig n) = n := by decide

@[simp] theorem isDig_dig (n : Nat) : isDig (dig (n % 10)) = true := isDig_dig_lt _ (Nat.mod_lt _ (by decide))
@[simp] theorem digVal_dig (n : Nat) : digVal (dig (n % 10)) = n % 10 := digVal_dig_lt _ (Nat.mod_lt _ (by decide))

theorem isDig_iff (c : Char) : isDig c = true ↔ ∃ n, n < 10 ∧ c = dig n := by
  constructor
  · intro h
    unfold isDig at h
    simp only [Bool.and_eq_true, Nat.ble_eq] at h
    refine ⟨c.toNat - 48, by omega, ?_⟩
    have : c = Char.ofNat c.toNat := (Char.ofNat_toNat c).symm
    rw [dig_digChar _ (by omega), digChar, show 48 + (c.toNat - 48) = c.toNat by omega]
    exact this
  · rintro ⟨n, h, rfl⟩; exact isDig_dig_lt n h

/-- A digit is not any of the other characters used. -/
theorem dig_ne {n : Nat} (h : n < 10) {c : Char} (hc : isDig c = false) : dig n ≠ c := by
  intro e; rw [← e, isDig_dig_lt n h] at hc; cases hc

theorem dig_mod_ne (n : Nat) {c : Char} (hc : isDig c = false) : dig (n % 10) ≠ c :=
  dig_ne (Nat.mod_lt _ (by decide)) hc

theorem isDig_ne {c x : Char} (h : isDig c = true) (hx : isDig x = false) : c ≠ x := by
  rintro rfl; rw [h] at hx; cases hx

/-! ### Values of digit strings -/

theorem digitsVal_append (a b : Str) : digitsVal (a ++ b) = digitsVal a * 10 ^ b.length + digitsVal b := by
  unfold digitsVal
  rw [List.foldl_append]
  have gen : ∀ (b : Str) (x : Nat), b.foldl (fun acc c => acc * 10 + digVal c) x
      = x * 10 ^ b.length + b.foldl (fun acc c => acc * 10 + digVal c) 0 := by
    intro b
    induction b with
    | nil => intro x; simp
    | cons c cs ih =>
      intro x
      simp only [List.foldl_cons, List.length_cons]
      rw [ih, ih (0 * 10 + digVal c), Nat.pow_succ, Nat.add_mul]
      simp only [Nat.zero_mul, Nat.zero_add]
      rw [Nat.mul_assoc, Nat.mul_comm 10, Nat.add_assoc]
  exact gen b _

theorem digitsVal_nil : digitsVal [] = 0 := rfl
theorem digitsVal_singleton (c : Char) : digitsVal [c] = digVal c := by simp [digitsVal]

theorem digVal_lt {c : Char} (h : isDig c = true) : digVal c < 10 := by
  obtain ⟨n, hn, rfl⟩ := (isDig_iff c).1 h
  rw [digVal_dig_lt n hn]; exact hn

theorem dig_digVal {c : Char} (h : isDig c = true) : dig (digVal c) = c := by
  obtain ⟨n, hn, rfl⟩ := (isDig_iff c).1 h
  rw [digVal_dig_lt n hn]

theorem digitsVal_lt (s : Str) (h : s.all isDig = true) : digitsVal s < 10 ^ s.length := by
  induction s with
  | nil => simp [digitsVal]
  | cons c cs ih =>
    simp only [List.all_cons, Bool.and_eq_true] at h
    have h1 := digVal_lt h.1
    have h2 := ih h.2
    have := digitsVal_append [c] cs
    simp only [List.singleton_append] at this
    rw [this, digitsVal_singleton, List.length_cons, Nat.pow_succ]
    have : digVal c * 10 ^ cs.length + 10 ^ cs.length ≤ 10 ^ cs.length * 10 := by
      rw [← Nat.succ_mul, Nat.mul_comm]; exact Nat.mul_le_mul_left _ h1
    omega

theorem digitsVal_pad4 (n : Nat) (h : n < 10000) : digitsVal (pad4 n) = n := by
  simp only [pad4, digitsVal, List.foldl_cons, List.foldl_nil, digVal_dig]
  omega

theorem digitsVal_pad2 (n : Nat) (h : n < 100) : digitsVal (pad2 n) = n := by
  simp only [pad2, digitsVal, List.foldl_cons, List.foldl_nil, digVal_dig]
  omega

@[simp] theorem pad4_length (n : Nat) : (pad4 n).length = 4 := rfl
@[simp] theorem pad2_length (n : Nat) : (pad2 n).length = 2 := rfl
@[simp] theorem pad4_ne_nil (n : Nat) : pad4 n ≠ [] := by simp [pad4]
@[simp] theorem pad2_ne_nil (n : Nat) : pad2 n ≠ [] := by simp [pad2]
@[simp] theorem pad4_all (n : Nat) : (pad4 n).all isDig = true := by simp [pad4]
@[simp] theorem pad2_all (n : Nat) : (pad2 n).all isDig = true := by simp [pad2]

/-! ### natDigits -/

theorem natDigitsAux_acc (f n : Nat) (acc : Str) : natDigitsAux f n acc = natDigitsAux f n [] ++ acc := by
  induction f generalizing n acc with
  | zero => simp [natDigitsAux]
  | succ f ih =>
    unfold natDigitsAux
    split
    · simp
    · rw [ih (n / 10) (digChar (n % 10) :: acc), ih (n / 10) [digChar (n % 10)]]; simp

theorem natDigitsAux_fuel (f g n : Nat) (hf : n < f) (hg : n < g) : natDigitsAux f n [] = natDigitsAux g n [] := by
  induction f generalizing n g with
  | zero => omega
  | succ f ih =>
    cases g with
    | zero => omega
    | succ g =>
      unfold natDigitsAux
      split
      · rfl
      · rw [natDigitsAux_acc f, natDigitsAux_acc g, ih g (n / 10) (by omega) (by omega)]

theorem natDigits_lt {n : Nat} (h : n < 10) : natDigits n = [dig n] := by
  unfold natDigits natDigitsAux
  rw [if_pos h, dig_digChar n h]

theorem natDigits_ge {n : Nat} (h : 10 ≤ n) : natDigits n = natDigits (n / 10) ++ [dig (n % 10)] := by
  unfold natDigits
  rw [natDigitsAux, if_neg (by omega), natDigitsAux_acc, dig_digChar _ (Nat.mod_lt _ (by decide)),
    natDigitsAux_fuel n (n / 10 + 1) (n / 10) (by omega) (by omega)]

theorem natDigits_all (n : Nat) : (natDigits n).all isDig = true := by
  induction n using Nat.strongRecOn with
  | ind n ih =>
    by_cases h : n < 10
    · rw [natDigits_lt h]; simp [isDig_dig_lt n h]
    · rw [natDigits_ge (by omega), List.all_append, ih _ (by omega)]; simp

theorem natDigits_ne_nil (n : Nat) : natDigits n ≠ [] := by
  by_cases h : n < 10
  · rw [natDigits_lt h]; simp
  · rw [natDigits_ge (by omega)]; simp

theorem digitsVal_natDigits (n : Nat) : digitsVal (natDigits n) = n := by
  induction n using Nat.strongRecOn with
  | ind n ih =>
    by_cases h : n < 10
    · rw [natDigits_lt h, digitsVal_singleton, digVal_dig_lt n h]
    · rw [natDigits_ge (by omega), digitsVal_append, ih _ (by omega), digitsVal_singleton, digVal_dig]
      simp only [List.length_singleton, Nat.pow_one]; omega

theorem natDigits_length_le {n k : Nat} (hk : 1 ≤ k) : (natDigits n).length ≤ k ↔ n < 10 ^ k := by
  constructor
  · intro h
    have h1 := digitsVal_lt _ (natDigits_all n)
    rw [digitsVal_natDigits] at h1
    exact Nat.lt_of_lt_of_le h1 (Nat.pow_le_pow_right (by decide) h)
  · intro h
    induction k generalizing n with
    | zero => omega
    | succ k ih =>
      by_cases h10 : n < 10
      · rw [natDigits_lt h10]; simp
      · rw [natDigits_ge (by omega)]
        simp only [List.length_append, List.length_singleton]
        have hk1 : 1 ≤ k := by
          rcases Nat.eq_zero_or_pos k with h0 | h0
          · subst h0; simp at h; omega
          · exact h0
        have := ih hk1 (n := n / 10) (by rw [Nat.pow_succ] at h; omega)
        omega

theorem natDigits_four {n : Nat} (h1 : 1000 ≤ n) (h2 : n < 10000) : natDigits n = pad4 n := by
  rw [natDigits_ge (by omega), natDigits_ge (by omega), natDigits_ge (by omega), natDigits_lt (by omega)]
  have a : n / 10 / 10 / 10 = n / 1000 % 10 := by omega
  have b : n / 10 / 10 % 10 = n / 100 % 10 := by omega
  simp only [pad4, List.append_assoc, List.singleton_append, a, b]; rfl

theorem natDigits_two {n : Nat} (h1 : 10 ≤ n) (h2 : n < 100) : natDigits n = pad2 n := by
  rw [natDigits_ge (by omega), natDigits_lt (by omega)]
  simp only [pad2, List.singleton_append]
  congr 2
  omega

theorem zeroPad4 {n : Nat} (h : n < 10000) : zeroPad 4 (natDigits n) = pad4 n := by
  by_cases h3 : 1000 ≤ n
  · rw [natDigits_four h3 h]; simp [zeroPad]
  by_cases h2 : 100 ≤ n
  · rw [natDigits_ge (by omega), natDigits_ge (by omega), natDigits_lt (by omega)]
    have a : n / 1000 % 10 = 0 := by omega
    have b : n / 10 / 10 = n / 100 % 10 := by omega
    simp [zeroPad, pad4, a, b]; rfl
  by_cases h1 : 10 ≤ n
  · rw [natDigits_ge (by omega), natDigits_lt (by omega)]
    have a : n / 1000 % 10 = 0 := by omega
    have b : n / 100 % 10 = 0 := by omega
    have c : n / 10 = n / 10 % 10 := by omega
    rw [pad4, a, b, ← c]; rfl
  · rw [natDigits_lt (by omega)]
    have a : n / 1000 % 10 = 0 := by omega
    have b : n / 100 % 10 = 0 := by omega
    have c : n / 10 % 10 = 0 := by omega
    have d : n % 10 = n := by omega
    rw [pad4, a, b, c, d]; rfl

theorem zeroPad2 {n : Nat} (h : n < 100) : zeroPad 2 (natDigits n) = pad2 n := by
  by_cases h1 : 10 ≤ n
  · rw [natDigits_two h1 h]; rfl
  · rw [natDigits_lt (by omega)]
    have c : n / 10 % 10 = 0 := by omega
    have d : n % 10 = n := by omega
    rw [pad2, c, d]; rfl

theorem padInt4 {n : Nat} (h : n < 10000) : padInt 4 n = pad4 n := by
  unfold padInt
  rw [if_neg (by omega), Int.natAbs_natCast, zeroPad4 h]

theorem padInt2 {n : Nat} (h : n < 100) : padInt 2 n = pad2 n := by
  unfold padInt
  rw [if_neg (by omega), Int.natAbs_natCast, zeroPad2 h]

theorem zeroPad_yearDigits {n : Nat} (h : n < 100000) : zeroPad 4 (natDigits n) = yearDigits n := by
  unfold yearDigits
  by_cases h1 : n < 10000
  · rw [if_pos h1, zeroPad4 h1]
  · rw [if_neg h1, natDigits_ge (by omega), natDigits_four (by omega) (by omega)]
    have a : n / 10 / 1000 % 10 = n / 10000 := by omega
    have b : n / 10 / 100 % 10 = n / 1000 % 10 := by omega
    have c : n / 10 / 10 % 10 = n / 100 % 10 := by omega
    simp [zeroPad, pad4, a, b, c]

theorem fmtYear_eq {y : Int} (h : y.natAbs < 100000) : fmtYear y = yearText y := by
  unfold fmtYear yearText
  rw [zeroPad_yearDigits h]

theorem fmt2_eq {n : Nat} (h : n < 100) : fmt2 n = pad2 n := by
  unfold fmt2
  rw [Int.natAbs_natCast, zeroPad2 h]

/-! ### parseInt -/

theorem head_dig_cases {s : Str} (h : s.all isDig = true) (h0 : s ≠ []) :
    ∃ c cs, s = c :: cs ∧ c ≠ '-' ∧ c ≠ '+' := by
  cases s with
  | nil => exact absurd rfl h0
  | cons c cs =>
    simp only [List.all_cons, Bool.and_eq_true] at h
    exact ⟨c, cs, rfl, isDig_ne h.1 (by decide), isDig_ne h.1 (by decide)⟩

/-- ParseInt on plain digits. -/
theorem parseInt_digits (bits : Nat) {s : Str} (h : s.all isDig = true) (h0 : s ≠ []) :
    parseInt bits s = if digitsVal s < 2 ^ (bits - 1) then some (digitsVal s : Int) else none := by
  obtain ⟨c, cs, rfl, h1, h2⟩ := head_dig_cases h h0
  unfold parseInt
  split
  · simp_all
  · simp_all
  · simp [h]

theorem parseInt_neg (bits : Nat) {s : Str} (h : s.all isDig = true) (h0 : s ≠ []) :
    parseInt bits ('-' :: s) = if digitsVal s ≤ 2 ^ (bits - 1) then some (-(digitsVal s : Int)) else none := by
  unfold parseInt
  simp [h, h0]

theorem atoi_pad4 {n : Nat} (h : n < 10000) : atoi (pad4 n) = some (n : Int) := by
  unfold atoi
  rw [parseInt_digits 64 (pad4_all n) (pad4_ne_nil n), digitsVal_pad4 n h, if_pos (by omega)]

theorem atoi_neg_pad4 {n : Nat} (h : n < 10000) : atoi ('-' :: pad4 n) = some (-(n : Int)) := by
  unfold atoi
  rw [parseInt_neg 64 (pad4_all n) (pad4_ne_nil n), digitsVal_pad4 n h, if_pos (by omega)]

theorem atoi_pad2 {n : Nat} (h : n < 100) : atoi (pad2 n) = some (n : Int) := by
  unfold atoi
  rw [parseInt_digits 64 (pad2_all n) (pad2_ne_nil n), digitsVal_pad2 n h, if_pos (by omega)]

theorem atoi_yearText {y : Int} (h : y.natAbs < 10000) : atoi (yearText y) = some y := by
  unfold yearText yearDigits
  rw [if_pos h]
  split
  · rw [atoi_neg_pad4 h]; congr 1; omega
  · rw [atoi_pad4 h]; congr 1; omega

theorem parseInt_itoa (n : Int) (h1 : -2 ^ 63 ≤ n) (h2 : n < 2 ^ 63) : parseInt 64 (itoa n) = some n := by
  unfold itoa
  split
  · rw [parseInt_neg 64 (natDigits_all _) (natDigits_ne_nil _), digitsVal_natDigits, if_pos (by omega)]
    congr 1; omega
  · rw [parseInt_digits 64 (natDigits_all _) (natDigits_ne_nil _), digitsVal_natDigits, if_pos (by omega)]
    congr 1; omega

theorem parseInt_range {bits : Nat} {s : Str} {v : Int} (h : parseInt bits s = some v) :
    -(2 ^ (bits - 1) : Nat) ≤ v ∧ v < (2 ^ (bits - 1) : Nat) := by
  have pos : 0 < 2 ^ (bits - 1) := Nat.pow_pos (by decide)
  unfold parseInt at h
  split at h
  all_goals
    simp only [Bool.false_eq_true, if_false, if_true] at h
    split at h
    · cases h
    · split at h
      · injection h with h; omega
      · cases h

/-! ### wrap64 and sign flips -/

theorem wrap64_id {n : Int} (h1 : -2 ^ 63 ≤ n) (h2 : n < 2 ^ 63) : wrap64 n = n := by
  unfold wrap64
  rw [Int.bmod_def]
  split <;> omega

theorem flipYear_eq {y : Int} (h1 : -2 ^ 62 ≤ y) (h2 : y < 2 ^ 62) : flipYear y = -y := by
  unfold flipYear
  rw [wrap64_id (n := y * 2) (by omega) (by omega), wrap64_id (by omega) (by omega)]
  omega

end EDTF
