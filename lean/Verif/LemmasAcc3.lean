/-
The exact value of exponential notation: the integer rounded to 64 binary
places, cut to 64 bits.
-/
import Verif.SpecLang
import Verif.PropsPanic
namespace EDTF
open Spec BF

/-! ### Rounding -/

theorem bitLen_eq {n k : Nat} (h1 : 2 ^ k ≤ n) (h2 : n < 2 ^ (k + 1)) : bitLen n = k + 1 := by
  have := lt_bitLen.2 h1
  have := bitLen_le.2 h2
  omega

theorem bitLen_shift {m : Nat} (hm : m ≠ 0) (e : Nat) : bitLen (m * 2 ^ e) = bitLen m + e := by
  have h0 := bitLen_pos hm
  obtain ⟨k, hk⟩ : ∃ k, bitLen m = k + 1 := ⟨bitLen m - 1, by omega⟩
  have h1 : 2 ^ k ≤ m := lt_bitLen.1 (by omega)
  have h2 : m < 2 ^ (k + 1) := bitLen_le.1 (by omega)
  have := bitLen_eq (n := m * 2 ^ e) (k := k + e) (by rw [Nat.pow_add]; exact Nat.mul_le_mul_right _ h1)
    (by rw [show k + e + 1 = (k + 1) + e by omega, Nat.pow_add]; exact Nat.mul_lt_mul_of_pos_right h2 (Nat.two_pow_pos e))
  omega

/-- Rounding determines its result. -/
theorem rounds64_unique {n r r' : Nat} (h : Rounds64 n r) (h' : Rounds64 n r') : r = r' := by
  have big : ∀ {k}, 0 < k → 2 ^ (63 + k) ≤ n → ¬ n < 2 ^ 64 := by
    intro k hk h hn
    have : 2 ^ 64 ≤ 2 ^ (63 + k) := Nat.pow_le_pow_right (by decide) (by omega)
    omega
  rcases h with ⟨h1, rfl⟩ | ⟨k, q, hk, a1, a2, rfl, a3⟩
  · rcases h' with ⟨-, rfl⟩ | ⟨k, q, hk, a1, -⟩
    · rfl
    · exact absurd h1 (big hk a1)
  · rcases h' with ⟨h1, rfl⟩ | ⟨k', q', hk', b1, b2, rfl, b3⟩
    · exact absurd h1 (big hk a1)
    · have e1 := bitLen_eq a1 (by rw [show 63 + k + 1 = 64 + k by omega]; exact a2)
      have e2 := bitLen_eq b1 (by rw [show 63 + k' + 1 = 64 + k' by omega]; exact b2)
      have : k = k' := by omega
      subst this
      have aux : ∀ {q q' : Nat}, q < q' →
          (2 * (n - q * 2 ^ k) + 2 * (q * 2 ^ k - n) < 2 ^ k ∨ 2 * (n - q * 2 ^ k) + 2 * (q * 2 ^ k - n) = 2 ^ k ∧ 2 ∣ q) →
          (2 * (n - q' * 2 ^ k) + 2 * (q' * 2 ^ k - n) < 2 ^ k ∨ 2 * (n - q' * 2 ^ k) + 2 * (q' * 2 ^ k - n) = 2 ^ k ∧ 2 ∣ q') → False := by
        intro q q' hlt a3 b3
        obtain ⟨j, rfl⟩ : ∃ j, q' = q + 1 + j := ⟨q' - q - 1, by omega⟩
        have hP := Nat.two_pow_pos k
        have e : (q + 1 + j) * 2 ^ k = q * 2 ^ k + 2 ^ k + j * 2 ^ k := by rw [Nat.add_mul, Nat.add_mul, Nat.one_mul]
        have hj : j = 0 ∨ 2 ^ k ≤ j * 2 ^ k := by
          rcases Nat.eq_zero_or_pos j with h | h
          · exact Or.inl h
          · exact Or.inr (Nat.le_mul_of_pos_left _ h)
        rw [e] at b3
        generalize q * 2 ^ k = A at *
        generalize hJ : j * 2 ^ k = J at *
        generalize 2 ^ k = P at *
        rcases hj with rfl | hj
        · rw [Nat.zero_mul] at hJ
          subst hJ
          omega
        · omega
      rcases Nat.lt_trichotomy q q' with h | h | h
      · exact (aux h a3 b3).elim
      · rw [h]
      · exact (aux h b3 a3).elim

/-- The rounded mantissa. -/
theorem roundQ_rounds {M e : Nat} (h : 64 < bitLen M) : Rounds64 (M * 2 ^ e) (roundQ 64 M * 2 ^ (e + (bitLen M - 64))) := by
  have hM : M ≠ 0 := by rintro rfl; simp [bitLen] at h
  have hb := bitLen_shift hM e
  obtain ⟨k0, hk0⟩ : ∃ k0, bitLen M - 64 = k0 + 1 := ⟨bitLen M - 64 - 1, by omega⟩
  refine Or.inr ⟨e + (bitLen M - 64), roundQ 64 M, by omega, lt_bitLen.1 (by omega), bitLen_le.1 (by omega), rfl, ?_⟩
  rw [Nat.pow_add 2 e, Nat.mul_comm (2 ^ e) (2 ^ (bitLen M - 64)), ← Nat.mul_assoc]
  have key : 2 * (M - roundQ 64 M * 2 ^ (bitLen M - 64)) + 2 * (roundQ 64 M * 2 ^ (bitLen M - 64) - M) < 2 ^ (bitLen M - 64) ∨
      (2 * (M - roundQ 64 M * 2 ^ (bitLen M - 64)) + 2 * (roundQ 64 M * 2 ^ (bitLen M - 64) - M) = 2 ^ (bitLen M - 64) ∧ 2 ∣ roundQ 64 M) := by
    unfold roundQ
    simp only
    rw [hk0]
    have hp : 2 ^ (k0 + 1) = 2 * 2 ^ k0 := by rw [Nat.pow_succ]; omega
    have hdm := Nat.div_add_mod M (2 ^ (k0 + 1))
    have hlt := Nat.mod_lt M (Nat.two_pow_pos (k0 + 1))
    rw [show k0 + 1 - 1 = k0 by omega]
    generalize hq : M / 2 ^ (k0 + 1) = q at *
    generalize hr : M % 2 ^ (k0 + 1) = r at *
    rw [hp] at *
    have hP := Nat.two_pow_pos k0
    rw [Nat.mul_comm] at hdm
    have e1 : (q + 1) * (2 * 2 ^ k0) = q * (2 * 2 ^ k0) + 2 * 2 ^ k0 := by rw [Nat.add_mul, Nat.one_mul]
    split
    · rw [e1]; generalize q * (2 * 2 ^ k0) = A at *; generalize 2 ^ k0 = P at *; omega
    · split
      · generalize q * (2 * 2 ^ k0) = A at *; generalize 2 ^ k0 = P at *; omega
      · split
        · rw [e1]; generalize q * (2 * 2 ^ k0) = A at *; generalize 2 ^ k0 = P at *; omega
        · generalize q * (2 * 2 ^ k0) = A at *; generalize 2 ^ k0 = P at *; omega
  have hE := Nat.two_pow_pos e
  have e2 : 2 * (M * 2 ^ e - roundQ 64 M * 2 ^ (bitLen M - 64) * 2 ^ e) + 2 * (roundQ 64 M * 2 ^ (bitLen M - 64) * 2 ^ e - M * 2 ^ e) =
      (2 * (M - roundQ 64 M * 2 ^ (bitLen M - 64)) + 2 * (roundQ 64 M * 2 ^ (bitLen M - 64) - M)) * 2 ^ e := by
    rw [Nat.add_mul, Nat.mul_assoc 2, Nat.mul_assoc 2, Nat.sub_mul, Nat.sub_mul]
  rw [e2]
  rcases key with h | ⟨h, hd⟩
  · exact Or.inl (Nat.mul_lt_mul_of_pos_right h hE)
  · exact Or.inr ⟨by rw [h], hd⟩

/-- A number that ends in enough zeros is not changed. -/
theorem rounds64_exact {M e : Nat} (h1 : bitLen M ≤ 64) (h2 : 2 ^ 64 ≤ M * 2 ^ e) : Rounds64 (M * 2 ^ e) (M * 2 ^ e) := by
  have hM : M ≠ 0 := by rintro rfl; simp at h2
  have hb := bitLen_shift hM e
  have := lt_bitLen.2 h2
  obtain ⟨k, hk⟩ : ∃ k, bitLen M + e = 64 + k := ⟨bitLen M + e - 64, by omega⟩
  refine Or.inr ⟨k, M * 2 ^ (e - k), by omega, lt_bitLen.1 (by omega), bitLen_le.1 (by omega), ?_, Or.inl ?_⟩
  · rw [Nat.mul_assoc, ← Nat.pow_add, show e - k + k = e by omega]
  · rw [Nat.sub_self]
    simp [Nat.two_pow_pos]

/-- Below 2^78 the float arithmetic rounds once. -/
theorem ofExp_rounds {m e : Nat} (h1 : 2 ^ 64 ≤ m * 10 ^ e) (h2 : m * 10 ^ e < 2 ^ 78) :
    ∃ q x, ofExp m e = some (.fin q x) ∧ x < 64 ∧ Rounds64 (m * 10 ^ e) (q * 2 ^ x) := by
  have hm : m ≠ 0 := by rintro rfl; simp at h1
  have he : e < 24 := by
    apply Nat.lt_of_not_le
    intro h20
    have h1 : 10 ^ 24 ≤ 10 ^ e := Nat.pow_le_pow_right (by decide) h20
    have h2 : 1 * 10 ^ e ≤ m * 10 ^ e := Nat.mul_le_mul_right _ (by omega)
    have h3 : (2 : Nat) ^ 78 ≤ 10 ^ 24 := by decide
    omega
  have l1 : m ≤ m * 10 ^ e := Nat.le_mul_of_pos_right _ (Nat.pow_pos (by decide))
  have b1 : bitLen m ≤ 78 := bitLen_le.2 (by omega)
  have hmax : maxExp = 2 ^ 31 - 1 := rfl
  have hN : m * 5 ^ e * 2 ^ e = m * 10 ^ e := by rw [ten_pow, Nat.mul_assoc]
  have hE : ofExp m e = some (round 64 (m * 5 ^ e) e) := by
    unfold ofExp
    rw [if_neg hm, if_neg (by omega)]
    by_cases h0 : e = 0
    · subst h0; simp
    · rw [if_neg h0]
      unfold pow5 mul
      rw [if_pos (by omega)]
      simp only [Nat.add_zero]
  have hM : m * 5 ^ e ≠ 0 := Nat.mul_ne_zero hm (Nat.pow_pos (by decide) |> Nat.pos_iff_ne_zero.1)
  have hb := bitLen_shift hM e
  rw [hN] at hb
  have hbN : bitLen (m * 10 ^ e) ≤ 78 := bitLen_le.2 h2
  rw [hE]
  rw [← hN] at h1 h2 ⊢
  by_cases hs : bitLen (m * 5 ^ e) ≤ 64
  · refine ⟨m * 5 ^ e, e, ?_, by omega, rounds64_exact hs h1⟩
    rw [round_exact hs, if_neg (by omega)]
  · refine ⟨roundQ 64 (m * 5 ^ e), e + (bitLen (m * 5 ^ e) - 64), ?_, by omega, roundQ_rounds (by omega)⟩
    rw [round_long (by omega), if_neg]
    have hq : bitLen (roundQ 64 (m * 5 ^ e)) ≤ 66 := by
      apply bitLen_le.2
      have := (roundQ_bounds 64 (m * 5 ^ e)).2
      have hd := bitLen_div (m := m * 5 ^ e) (k := bitLen (m * 5 ^ e) - 64) (by omega)
      have := bitLen_le.1 (show bitLen (m * 5 ^ e / 2 ^ (bitLen (m * 5 ^ e) - 64)) ≤ 64 by omega)
      have : (2 : Nat) ^ 64 + 1 < 2 ^ 66 := by decide
      omega
    omega

/-! ### The year -/

theorem wrap_value {neg : Bool} {r L : Nat} {v : Int} (hL : (r : Int) % 18446744073709551616 = (L : Int) % 18446744073709551616) (h1 : -9999 ≤ v) (h2 : v ≤ 9999) :
    (if neg then wrap64 (-(wrap64 (L : Int))) else wrap64 (L : Int)) = v ↔ (2 ^ 64 : Int) ∣ (if neg then -(r : Int) else r) - v := by
  rw [show (2 ^ 64 : Int) = 18446744073709551616 from rfl]
  cases neg
  · rw [if_neg (by decide), if_neg (by decide), wrap64_def]
    split <;> omega
  · rw [if_pos rfl, if_pos rfl, wrap64_def (L : Int), wrap64_def]
    split <;> split <;> omega

theorem low64_mod {q x : Nat} (h : x < 64) : ((q * 2 ^ x : Nat) : Int) % 18446744073709551616 = (low64 q x : Int) % 18446744073709551616 := by
  have : low64 q x = q * 2 ^ x % 2 ^ 64 := by
    show (if x ≥ 64 then 0 else q * 2 ^ x % 2 ^ 64) = _
    rw [if_neg (by omega)]
  rw [this]
  generalize q * 2 ^ x = A
  have : (2 : Nat) ^ 64 = 18446744073709551616 := by decide
  rw [this]
  omega

theorem expTail_iff {neg : Bool} {nt : Str} {m x : Nat} {v : Int} : expTail neg nt (some (.fin m x)) = .ok v ↔
    -9999 ≤ v ∧ v ≤ 9999 ∧ (if neg then wrap64 (-(wrap64 (low64 m x))) else wrap64 (low64 m x)) = v := by
  have hM : MAX_YEARS = 9999 := rfl
  simp only [expTail]
  generalize (if neg then wrap64 (-(wrap64 (low64 m x))) else wrap64 (low64 m x)) = w
  constructor
  · intro h
    split at h
    · cases h
    · injection h with h
      subst h
      rw [hM] at *
      exact ⟨by omega, by omega, rfl⟩
  · rintro ⟨h1, h2, rfl⟩
    rw [if_neg (by rw [hM]; omega)]

/-- Exponential notation with a value other than zero. -/
theorem exp_exact (neg : Bool) {ec : Char} (hec : ec = 'E' ∨ ec = 'e') {ms es : List Nat} (hm : Digits ms) (he : Digits es) {v : Int} (hv : v ≠ 0) :
    parseExponentialNotation (sgn neg (ms.map dig ++ ec :: es.map dig)) = .ok v ↔ ExpYear neg ms es v := by
  rw [exponential_eq neg hec (all_dig hm.2) (by simpa using hm.1) (all_dig he.2) (by simpa using he.1), digitsVal_map _ hm.2, digitsVal_map _ he.2]
  unfold ExpYear
  by_cases hs : 2 ^ 63 ≤ value10 es
  · rw [if_pos hs]
    constructor
    · intro h; cases h
    · intro h; omega
  rw [if_neg hs]
  by_cases c1 : value10 ms * 10 ^ value10 es < 2 ^ 64
  · obtain ⟨q, x, ho, hl⟩ := ofExp_exact c1
    rw [ho, expTail_iff, hl]
    constructor
    · rintro ⟨h1, h2, h3⟩
      exact ⟨by omega, h1, h2, _, Or.inl ⟨c1, rfl⟩, (wrap_value rfl h1 h2).1 h3⟩
    · rintro ⟨-, h1, h2, r, hr, h3⟩
      have := rounds64_unique hr (Or.inl ⟨c1, rfl⟩)
      subst this
      exact ⟨h1, h2, (wrap_value rfl h1 h2).2 h3⟩
  by_cases c2 : value10 ms * 10 ^ value10 es < 2 ^ 78
  · obtain ⟨q, x, ho, hx, hR⟩ := ofExp_rounds (by omega) c2
    rw [ho, expTail_iff]
    constructor
    · rintro ⟨h1, h2, h3⟩
      exact ⟨by omega, h1, h2, _, hR, (wrap_value (low64_mod hx) h1 h2).1 h3⟩
    · rintro ⟨-, h1, h2, r, hr, h3⟩
      have := rounds64_unique hr hR
      subst this
      exact ⟨h1, h2, (wrap_value (low64_mod hx) h1 h2).2 h3⟩
  · constructor
    · intro h
      exfalso
      cases ho : BF.ofExp (value10 ms) (value10 es) with
      | none => rw [ho] at h; cases h
      | some b =>
        cases b with
        | inf => rw [ho] at h; cases h
        | fin q x =>
          rw [ho, expTail_iff] at h
          obtain ⟨h1, h2, h3⟩ := h
          obtain ⟨k, hk⟩ := low64_multiple (q := q) (ofExp_huge (by omega) ho)
          rw [hk] at h3
          cases neg
          · rw [if_neg (by decide), wrap64_def] at h3
            split at h3 <;> omega
          · rw [if_pos rfl, wrap64_def ((16384 * k : Nat) : Int), wrap64_def] at h3
            split at h3 <;> split at h3 <;> omega
    · rintro ⟨-, h1, h2, r, hr, h3⟩
      exfalso
      rcases hr with ⟨h, -⟩ | ⟨k, q, hk, a1, a2, rfl, -⟩
      · exact absurd h c1
      · have hk14 : 14 < k := by
          apply Nat.lt_of_not_le
          intro hk
          have : 2 ^ (64 + k) ≤ 2 ^ 78 := Nat.pow_le_pow_right (by decide) (by omega)
          omega
        obtain ⟨j, rfl⟩ : ∃ j, k = j + 14 := ⟨k - 14, by omega⟩
        have e : q * 2 ^ (j + 14) = q * 2 ^ j * 16384 := by rw [Nat.pow_add, ← Nat.mul_assoc]
        rw [e] at h3
        generalize q * 2 ^ j = A at h3
        obtain ⟨c, hc⟩ := h3
        rw [show (2 ^ 64 : Int) = 18446744073709551616 from rfl] at hc
        cases neg
        · simp only [Bool.false_eq_true, if_false] at hc; omega
        · simp only [if_true] at hc; omega

/-! ### Accepted exponential years -/

theorem mem_Yy {c : Char} : c ∈ c! "Yy" ↔ c = 'Y' ∨ c = 'y' := by
  show c ∈ ['Y', 'y'] ↔ _
  simp

theorem mem_Ee {c : Char} : c ∈ c! "Ee" ↔ c = 'E' ∨ c = 'e' := by
  show c ∈ ['E', 'e'] ↔ _
  simp

/-- The number always fits in four digits. -/
theorem exp_range (neg : Bool) {ec : Char} (hec : ec = 'E' ∨ ec = 'e') {ms es : List Nat} (hm : Digits ms) (he : Digits es) {v : Int}
    (h : parseExponentialNotation (sgn neg (ms.map dig ++ ec :: es.map dig)) = .ok v) : v.natAbs ≤ 9999 := by
  by_cases h0 : v = 0
  · subst h0; decide
  · have := (exp_exact neg hec hm he h0).1 h
    have h1 := this.2.1
    have h2 := this.2.2.1
    omega

/-- The exact result of an exponential year. -/
theorem exp_parse {f : Int → Nat → Nat → Int} (hf : DayCount f) {yc ec : Char} (hyc : yc = 'Y' ∨ yc = 'y') (hec : ec = 'E' ∨ ec = 'e') (neg : Bool)
    {ms es : List Nat} (hm : Digits ms) (he : Digits es) {b : Bool} {n : Nat} (h1 : 1000 ≤ n) (h2 : n ≤ 9999)
    (hv : ExpYear neg ms es (if b then -(n : Int) else n)) :
    parseString (yc :: sgn neg (ms.map dig ++ ec :: es.map dig)) = .ok
      ((⟨b, n, .none⟩ : Date0).result f (⟨b, n, .none⟩ : Date0).text (yc :: sgn neg (ms.map dig ++ ec :: es.map dig)) 2 (c! "Exponential year") 0 0) := by
  have hv' := (exp_exact neg hec hm he (by split <;> omega)).2 hv
  rw [parse_exp' hyc hec (all_dig hm.2) (by simpa using hm.1) (all_dig he.2) (by simpa using he.1), hv', Res.ok_bind,
    itoa_year hf h1 (by omega)]

theorem exp_accept {yc ec : Char} (hyc : yc = 'Y' ∨ yc = 'y') (hec : ec = 'E' ∨ ec = 'e') (neg : Bool) {ms es : List Nat} (hm : Digits ms) (he : Digits es) :
    (∃ d, parseString (yc :: sgn neg (ms.map dig ++ ec :: es.map dig)) = .ok d) ↔ ∃ v, ExpYear neg ms es v ∧ 1000 ≤ v.natAbs := by
  constructor
  · rintro ⟨d, h⟩
    rw [parse_exp' hyc hec (all_dig hm.2) (by simpa using hm.1) (all_dig he.2) (by simpa using he.1)] at h
    obtain ⟨v, hv, h⟩ := Res.bind_eq_ok.1 h
    by_cases h1 : v.natAbs < 1000
    · obtain ⟨w, hw⟩ := itoa_short h1
      rw [hw] at h
      cases h
    · exact ⟨v, (exp_exact neg hec hm he (by omega)).1 hv, by omega⟩
  · rintro ⟨v, hv, h1⟩
    have hr : v.natAbs ≤ 9999 := by
      have h1 := hv.2.1
      have h2 := hv.2.2.1
      omega
    have e : v = if decide (v < 0) then -(v.natAbs : Int) else (v.natAbs : Int) := by
      by_cases h : v < 0 <;> simp only [h, decide_true, decide_false, if_true, Bool.false_eq_true, if_false] <;> omega
    rw [e] at hv
    exact ⟨_, exp_parse dayCount_unixDay hyc hec neg hm he h1 hr hv⟩

theorem acc_exponential {s : Str} {r : EDTFDate} (h : L2.isExponentialYear s = true) (hp : parseString s = .ok r) : Accepted s := by
  obtain ⟨u, w, rfl, ⟨yc, rfl, hyc⟩, hw⟩ := lang_cat.1 (isExponential_iff.1 h)
  obtain ⟨neg, ms, es, ec, hec, m1, m2, e1, e2, rfl⟩ := lang_notation.1 hw
  obtain ⟨ms, a1, rfl⟩ := digits_exist m1
  obtain ⟨es, a2, rfl⟩ := digits_exist e1
  have hm : Digits ms := ⟨by simpa using m2, a1⟩
  have he : Digits es := ⟨by simpa using e2, a2⟩
  obtain ⟨v, hv, h1⟩ := (exp_accept (fold_Y.1 hyc) hec neg hm he).1 ⟨_, hp⟩
  exact .exponential yc ec (mem_Yy.2 (fold_Y.1 hyc)) (mem_Ee.2 hec) neg ms es hm he v hv h1

/-! ### Accepted years with significant digits -/

theorem sigTail_text (s s' : Str) (v : Int) (k : Nat) : (∃ r, sigTail s v k = .ok r) ↔ ∃ r, sigTail s' v k = .ok r := by
  unfold sigTail
  by_cases h : 2 ^ 63 ≤ k ∨ 10 ^ plainLen v ≤ k
  · rw [if_pos h, if_pos h]
    constructor <;> (rintro ⟨r, h⟩; cases h)
  · rw [if_neg h, if_neg h]
    constructor
    all_goals
      rintro ⟨r, h⟩
      obtain ⟨a, ha, h⟩ := Res.bind_eq_ok.1 h
      obtain ⟨b, hb, h⟩ := Res.bind_eq_ok.1 h
      rw [ha, Res.ok_bind, hb]
      exact ⟨_, rfl⟩

theorem sigTail_iff {s : Str} {v : Int} {k : Nat} (hv : v.natAbs < 10000) : (∃ r, sigTail s v k = .ok r) ↔ SigFits v k := by
  have e : v = if decide (v < 0) then -(v.natAbs : Int) else (v.natAbs : Int) := by
    by_cases h : v < 0 <;> simp only [h, decide_true, decide_false, if_true, Bool.false_eq_true, if_false] <;> omega
  have hd : k ≤ 9 → ∀ d ∈ [k], d < 10 := by
    intro hk d hd
    rw [List.mem_singleton] at hd
    omega
  have hx : ∀ hk : k ≤ 9, parseString ((⟨decide (v < 0), v.natAbs, .none⟩ : Date0).text ++ 'S' :: [k].map dig) =
      sigTail ((⟨decide (v < 0), v.natAbs, .none⟩ : Date0).text ++ 'S' :: [k].map dig) v k := by
    intro hk
    have := (sigYear_eq (.date (decide (v < 0)) v.natAbs hv) (hd hk) (by simp)).2
    rw [← e] at this
    rw [this]
    simp [value10]
  have hval : value10 [k] = k := by simp [value10]
  have hdv : (⟨decide (v < 0), v.natAbs, .none⟩ : Date0).value = v := by
    show (if decide (v < 0) then -(v.natAbs : Int) else (v.natAbs : Int)) = v
    exact e.symm
  constructor
  · intro h
    by_cases hl : plainLen v < k
    · exfalso
      by_cases hb : k < 10 ^ plainLen v
      · obtain ⟨r, hr⟩ := h
        rw [(sigTail_panic hv).2 ⟨hl, hb⟩] at hr
        cases hr
      · obtain ⟨r, hr⟩ := h
        unfold sigTail at hr
        rw [if_pos (Or.inr (by omega))] at hr
        cases hr
    · have h5 := plainLen_le v
      have hk9 : k ≤ 9 := by omega
      have hneg : ¬ ((v.natAbs < 1000 ∧ k < 4) ∨ v.natAbs < 100 ∨ k = 5) := by
        intro hc
        obtain ⟨a, w, he⟩ := C24_short_partial (decide (v < 0)) hv (hd hk9) (by simp) (by rw [hval, hdv]; omega) (by rw [hval]; exact hc)
        rw [hx hk9] at he
        obtain ⟨r, hr⟩ := (sigTail_text _ ((⟨decide (v < 0), v.natAbs, .none⟩ : Date0).text ++ 'S' :: [k].map dig) _ _).1 h
        rw [he] at hr
        cases hr
      by_cases h1 : 1000 ≤ v.natAbs
      · exact Or.inl ⟨h1, by omega, by omega⟩
      · refine Or.inr ?_
        have hk4 : k = 4 := by omega
        have : v < 0 := by
          apply Int.lt_of_not_ge
          intro h
          apply hl
          unfold plainLen
          rw [if_neg (show ¬ v < 0 by omega)]
          split
          · omega
          · split
            · omega
            · rw [if_pos (by omega)]; omega
        omega
  · rintro (⟨h1, h2, h3⟩ | ⟨h1, h2, rfl⟩)
    · have := (C24_actual_partial dayCount_unixDay (decide (v < 0)) h1 hv (hd (by omega)) (by simp) (by rw [hval]; exact h3)).1
      rw [hx (by omega)] at this
      exact (sigTail_text _ s _ _).1 ⟨_, this⟩
    · have hn : decide (v < 0) = true := by simp; omega
      have := C24_minus_partial dayCount_unixDay (n := v.natAbs) (by omega) (by omega) (hd (by omega)) (by simp) hval
      rw [← hn, hx (by omega)] at this
      exact (sigTail_text _ s _ _).1 ⟨_, this⟩

theorem sigText_eq {t : Str} {v : Int} (h : SigText t v) (h0 : v ≠ 0) {ds : List Nat} (hd : Digits ds) :
    v.natAbs < 10000 ∧ parseString (t ++ 'S' :: ds.map dig) = sigTail (t ++ 'S' :: ds.map dig) v (value10 ds) := by
  cases h with
  | date neg n h =>
    have := sigYear_eq (.date neg n h) hd.2 hd.1
    rw [date0_year] at this
    exact this
  | letter neg us hu hl =>
    have := sigYear_eq (.letter neg us hu.2 hu.1 (by cases neg <;> simp [signed] at hl ⊢ <;> omega)) hd.2 hd.1
    rw [← sgn_eq] at this
    exact this
  | exponential yc ec hy he neg ms es hm hes v hv =>
    have hval := (exp_exact neg (mem_Ee.1 he) hm hes h0).2 hv
    have hr := exp_range neg (mem_Ee.1 he) hm hes hval
    refine ⟨by omega, ?_⟩
    have hD := all_dig hd.2
    have hN : ds.map dig ≠ [] := by simpa using hd.1
    rw [List.cons_append]
    obtain ⟨m, hm', m1, m2, m3, m4, hp⟩ := exp_sig (neg := neg) (mem_Yy.1 hy) (mem_Ee.1 he) (all_dig hm.2) (by simpa using hm.1) (all_dig hes.2)
      (by simpa using hes.1) hD hN
    refine hp.trans ?_
    have e := sig_core hm' (v := v) (by omega) ?_ (by rw [m4]; exact hD) (by rw [m4]; exact hN)
    · rw [m4, digitsVal_map ds hd.2] at e; exact e
    · have hne2 : sgn neg (ms.map dig ++ ec :: es.map dig) ≠ [] := by cases neg <;> simp [sgn]
      unfold L2.sigYear
      rw [m1, m2, m3, if_neg (by simp), if_neg (by simp), if_pos hne2, hval]

theorem sig_accept {t : Str} {v : Int} (h : SigText t v) {ds : List Nat} (hd : Digits ds) (hk : SigFits v (value10 ds)) :
    ∃ r, parseString (t ++ 'S' :: ds.map dig) = .ok r := by
  have h0 : v ≠ 0 := by
    rcases hk with ⟨h1, -⟩ | ⟨h1, h2, -⟩ <;> omega
  obtain ⟨h1, h2⟩ := sigText_eq h h0 hd
  rw [h2]
  exact (sigTail_iff h1).2 hk

theorem acc_significant {s : Str} {r : EDTFDate} (hs : L2.isSignificantDigits s = true) (hr : L2.parseSignificantDigits s = .ok r) : Accepted s := by
  unfold L2.isSignificantDigits at hs
  rw [← isSome_submatch, Option.isSome_iff_exists] at hs
  obtain ⟨m, hm⟩ := hs
  obtain ⟨h4, hc⟩ := sig_caps hm
  obtain ⟨d1, d2⟩ := lang_plusDigit.1 h4
  obtain ⟨ds, a1, hds⟩ := digits_exist d1
  have hd : Digits ds := ⟨by rintro rfl; exact d2 (by simpa using hds), a1⟩
  have fin : ∀ {t v}, SigText t v → L2.sigYear s (m 1) (m 2) (m 3) = .ok v → v.natAbs < 10000 → s = t ++ 'S' :: ds.map dig → Accepted s := by
    intro t v h hy hv e
    have hk := (sigTail_iff hv).1 ⟨_, (sig_core hm hv hy d1 d2).symm.trans hr⟩
    rw [hds, digitsVal_map ds a1] at hk
    rw [e]
    exact .significant t v h ds hd hk
  have hy := hr
  unfold L2.parseSignificantDigits at hy
  rw [hm] at hy
  simp only at hy
  obtain ⟨v, hy, -⟩ := Res.bind_eq_ok.1 hy
  rcases hc with ⟨hl, -, -, e⟩ | ⟨z1, h2, z3, e⟩ | ⟨z1, z2, hn, c, hc, e⟩
  · obtain ⟨neg, n, hn, e'⟩ := lang_year4'.1 hl
    have hy' := hy
    unfold L2.sigYear at hy'
    rw [e', if_pos (yearStr_ne_nil _ _), atoi_yearStr neg hn] at hy'
    injection hy' with hy'
    subst hy'
    exact fin (.date neg n hn) hy (by split <;> omega) (by rw [e, e', hds]; rfl)
  · obtain ⟨neg, us, u1, u2, e'⟩ := lang_signed_iff.1 h2
    obtain ⟨us, b1, rfl⟩ := digits_exist u1
    have u0 : us ≠ [] := by simpa using u2
    have hy' := hy
    unfold L2.sigYear at hy'
    have hne2 : m 2 ≠ [] := by rw [e']; cases neg <;> simp [sgn, u0]
    rw [if_neg (by simp [z1]), if_pos hne2] at hy'
    by_cases hl : (m 2).length ≤ 4
    · have hb : value10 us < 10000 := by
        refine Nat.lt_of_lt_of_le (value10_lt b1) ?_
        refine Nat.le_trans (Nat.pow_le_pow_right (by decide) (?_ : us.length ≤ 4)) (by decide)
        rw [e'] at hl
        cases neg <;> simp [sgn] at hl ⊢ <;> omega
      rw [if_neg (by omega), e', atoi_signed b1 u0 (by omega)] at hy'
      injection hy' with hy'
      subst hy'
      rw [e'] at hl
      exact fin (.letter neg us ⟨u0, b1⟩ hl) hy (by split <;> omega) (by rw [e, e', hds]; rfl)
    · rw [if_pos (by omega)] at hy'
      cases hy'
  · obtain ⟨neg, ms, es, ec, hec, m1, m2, e1, e2, e'⟩ := lang_notation.1 hn
    obtain ⟨ms, b1, rfl⟩ := digits_exist m1
    obtain ⟨es, b2, rfl⟩ := digits_exist e1
    have hm0 : Digits ms := ⟨by simpa using m2, b1⟩
    have he0 : Digits es := ⟨by simpa using e2, b2⟩
    have hy' := hy
    unfold L2.sigYear at hy'
    rw [if_neg (by simp [z1]), if_neg (by simp [z2]), if_pos (by rw [e']; cases neg <;> simp [sgn]), e'] at hy'
    have hr' := exp_range neg hec hm0 he0 hy'
    by_cases h0 : v = 0
    · exfalso
      subst h0
      have := (sigTail_iff (by decide)).1 ⟨_, (sig_core hm (by decide) hy d1 d2).symm.trans hr⟩
      rcases this with ⟨h1, -⟩ | ⟨h1, h2, -⟩
      · exact absurd h1 (by decide)
      · exact absurd h2 (by decide)
    · exact fin (.exponential c ec (mem_Yy.2 (fold_Y.1 hc)) (mem_Ee.2 hec) neg ms es hm0 he0 v ((exp_exact neg hec hm0 he0 h0).1 hy')) hy (by omega)
        (by rw [e, e', hds]; rfl)

end EDTF
