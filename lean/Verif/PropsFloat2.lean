/- C106: which year ParseExponentialNotation makes of a number, and that it is what the parser makes of it. -/
import Verif.LemmasFloat2
import Verif.PropsMessage
import Verif.LemmasMessage5
namespace EDTF
open Spec BF

/-- The number of which the integer part is known. -/
theorem number_whole {b : Bytes} {neg bin : Bool} {ds : List Nat} {d u L U : Nat} {e : Int} (h : NumberThen (byteChars b) neg ds d bin e []) (hu : u ≤ 64)
    (h42 : if bin then d ≤ 42 else (d : Int) - e ≤ 42) (h1 : L * bottom d bin e ≤ top ds bin e) (h2 : top ds bin e * 2 ^ u ≤ U * bottom d bin e)
    (hU : U < 2 ^ 63) : ∃ v : Nat, L ≤ v ∧ v * 2 ^ u ≤ U ∧ parseExponentialNotationBytes b =
      if v ≤ 9999 then .ok (if neg then -(v : Int) else v) else .fault (unsupportedBytesText b) := by
  obtain ⟨f, hf, hp⟩ := number_sound h
  obtain ⟨q, x, rfl, k1, k2⟩ := ofParts_within hf hu h42 h1 h2 hU
  have hv : wholePart q x < 2 ^ 63 := by
    have : wholePart q x * 1 ≤ wholePart q x * 2 ^ u := Nat.mul_le_mul_left _ (Nat.two_pow_pos _)
    omega
  refine ⟨wholePart q x, k1, k2, ?_⟩
  rw [finite_said hp, low64_whole (by omega)]
  generalize wholePart q x = v at *
  have hm : MAX_YEARS = 9999 := rfl
  rw [wrap64_id (n := (v : Int)) (by omega) (by omega), wrap64_id (n := -(v : Int)) (by omega) (by omega)]
  by_cases k : v ≤ 9999
  · rw [if_pos k, if_neg]
    cases neg <;> simp <;> omega
  · rw [if_neg k, if_pos]
    cases neg <;> simp <;> omega

/-- **C106**: a fraction is cut off: a number from N up to N + 1 - 2^-49 gives N, with its sign, for N
up to 9999, if it has no more than 42 digits after the point (less the exponent). -/
theorem C106_value {b : Bytes} {neg bin : Bool} {ds : List Nat} {d N : Nat} {e : Int} (h : NumberThen (byteChars b) neg ds d bin e [])
    (h42 : if bin then d ≤ 42 else (d : Int) - e ≤ 42) (hN : N ≤ 9999) (h1 : N * bottom d bin e ≤ top ds bin e)
    (h2 : 2 ^ 49 * top ds bin e ≤ (2 ^ 49 * (N + 1) - 1) * bottom d bin e) :
    parseExponentialNotationBytes b = .ok (if neg then -(N : Int) else N) := by
  obtain ⟨v, k1, k2, e⟩ := number_whole h (u := 49) (L := N) (U := 2 ^ 49 * (N + 1) - 1) (by decide) h42 h1 (by rw [Nat.mul_comm]; exact h2) (by omega)
  have : v = N := by omega
  rw [e, this, if_pos hN]

/-- **C106**: a number from 10000 up to 2^62 is not supported. -/
theorem C106_above {b : Bytes} {neg bin : Bool} {ds : List Nat} {d : Nat} {e : Int} (h : NumberThen (byteChars b) neg ds d bin e [])
    (h42 : if bin then d ≤ 42 else (d : Int) - e ≤ 42) (h1 : 10000 * bottom d bin e ≤ top ds bin e) (h2 : top ds bin e ≤ 2 ^ 62 * bottom d bin e) :
    parseExponentialNotationBytes b = .fault (unsupportedBytesText b) := by
  obtain ⟨v, k1, k2, e⟩ := number_whole h (u := 0) (L := 10000) (U := 2 ^ 62) (by decide) h42 h1 (by simpa using h2) (by decide)
  rw [e, if_neg (by omega)]

/-- `1985.75`, `-15p-2`, `.5E1` and `12345` -/
theorem number_1985 : NumberThen (c! "1985.75") false [1, 9, 8, 5, 7, 5] 2 false 0 [] :=
  ⟨_, _, .none _ (fun _ e => by cases e) (fun _ e => by cases e), .point [1, 9, 8, 5] [7, 5] (by decide) (by decide) [] (fun _ _ _ e => by cases e), by decide,
    .none [] (fun _ _ _ e => by cases e), .inr (by decide)⟩
theorem number_15p : NumberThen (c! "-15p-2") true [1, 5] 0 true (-2) [] :=
  ⟨_, _, .minus _, .whole [1, 5] (by decide) (c! "p-2") (noDigit_of (by decide) _) (fun _ e => by cases e), by decide,
    .some 'p' (by decide) (c! "-2") true [2] ⟨by decide, by decide⟩ [] (fun _ _ _ e => by cases e) (.minus _) (by decide) (by decide), .inr (by decide)⟩

example : parseExponentialNotationBytes (ascii (c! "1985.75")) = .ok 1985 :=
  C106_value (b := ascii (c! "1985.75")) (N := 1985) number_1985 (by decide) (by decide) (by decide +kernel) (by decide +kernel)
example : parseExponentialNotationBytes (ascii (c! "-15p-2")) = .ok (-3) :=
  C106_value (b := ascii (c! "-15p-2")) (N := 3) number_15p (by decide) (by decide) (by decide +kernel) (by decide +kernel)
/-- Just below 10000 is not below it: 20 digits after the point are more than a float has. -/
example : parseExponentialNotationBytes (ascii (c! "9999.99999999999999999999")) =
    .fault (unsupportedBytesText (ascii (c! "9999.99999999999999999999"))) := by decide +kernel

/-! ### The numbers that the parser reads -/

theorem byteChars_ascii {s : Str} (h : ∀ c ∈ s, c.toNat < 0x80) : byteChars (ascii s) = s := by
  unfold byteChars ascii
  rw [List.map_map]
  conv => rhs; rw [← List.map_id s]
  apply List.map_congr_left
  intro c hc
  have := h c hc
  show Char.ofNat (UInt8.ofNat c.toNat).toNat = c
  rw [UInt8.toNat_ofNat_of_lt' (by show c.toNat < 256; omega), Char.ofNat_toNat]

theorem form_ascii (neg : Bool) {ec : Char} (hec : ec = 'E' ∨ ec = 'e') {ms es : List Nat} (hm : Digits ms) (he : Digits es) :
    ∀ c ∈ signed neg (ms.map dig ++ ec :: es.map dig), c.toNat < 0x80 := by
  have hd : ∀ k, k < 10 → (dig k).toNat < 0x80 := by decide
  have h1 : ∀ c ∈ ms.map dig ++ ec :: es.map dig, c.toNat < 0x80 := by
    intro c hc
    simp only [List.mem_append, List.mem_cons, List.mem_map] at hc
    rcases hc with ⟨k, hk, rfl⟩ | rfl | ⟨k, hk, rfl⟩
    · exact hd k (hm.2 k hk)
    · rcases hec with rfl | rfl <;> decide
    · exact hd k (he.2 k hk)
  intro c hc
  cases neg
  · exact h1 c hc
  · rcases List.mem_cons.1 hc with rfl | hc
    · decide
    · exact h1 c hc

theorem form_sign (neg : Bool) {ms : List Nat} (hm : Digits ms) (t : Str) : SignThen (signed neg (ms.map dig ++ t)) neg (ms.map dig ++ t) := by
  cases neg
  · obtain ⟨k, w, rfl⟩ := List.exists_cons_of_ne_nil hm.1
    have hk := hm.2 k (by simp)
    have : ∀ k, k < 10 → dig k ≠ '-' ∧ dig k ≠ '+' := by decide
    refine .none _ ?_ ?_
    · intro u e; injection e with e _; exact (this k hk).1 e
    · intro u e; injection e with e _; exact (this k hk).2 e
  · exact .minus _

theorem form_mantissa {ms : List Nat} (hm : Digits ms) {ec : Char} (hec : ec = 'E' ∨ ec = 'e') (t : Str) :
    MantissaThen (ms.map dig ++ ec :: t) ms 0 (ec :: t) := by
  refine .whole ms hm.2 _ ?_ ?_
  · rcases hec with rfl | rfl <;> exact noDigit_of (by decide) _
  · rcases hec with rfl | rfl <;> (intro u e; cases e)

theorem form_exponent {es : List Nat} (he : Digits es) {ec : Char} (hec : ec = 'E' ∨ ec = 'e') (h : value10 es < 2 ^ 63) :
    ExponentThen (ec :: es.map dig) false (value10 es) [] := by
  have hs := form_sign false he []
  have k := ExponentThen.some ec (by rcases hec with rfl | rfl <;> decide) (es.map dig) false es he [] (fun _ _ _ e => by cases e)
    (by simpa [signed] using hs) (fun _ => h) (fun k => by cases k)
  have : decide (ec ∈ c! "pP") = false := by rcases hec with rfl | rfl <;> decide
  rw [this] at k
  exact k

/-- **C106**: of the numbers that it passes on, the parser makes what this function makes of them. -/
theorem C106_form (neg : Bool) {ec : Char} (hec : ec = 'E' ∨ ec = 'e') {ms es : List Nat} (hm : Digits ms) (he : Digits es) :
    parseExponentialNotationBytes (ascii (signed neg (ms.map dig ++ ec :: es.map dig))) =
      (parseExponentialNotationM (signed neg (ms.map dig ++ ec :: es.map dig))).bytes := by
  have ha := form_ascii neg hec hm he
  have hbc := byteChars_ascii ha
  have hsg := form_sign neg hm (ec :: es.map dig)
  have hmn := form_mantissa hm hec (es.map dig)
  have hX := exponential_eq neg hec (all_dig hm.2) (by simpa using hm.1) (all_dig he.2) (by simpa using he.1)
  rw [digitsVal_map _ hm.2, digitsVal_map _ he.2, ← parseExponentialNotationM_forget] at hX
  have hlarge := fun h t ht => tooLarge_says (neg := neg) hec hm he h (t := t) ht
  have hcases := exp_cases neg hec hm he
  rw [← parseExponentialNotationM_forget] at hcases
  have hsgn : sgn neg (ms.map dig ++ ec :: es.map dig) = signed neg (ms.map dig ++ ec :: es.map dig) := rfl
  rw [hsgn] at hX hlarge hcases
  generalize hs : signed neg (ms.map dig ++ ec :: es.map dig) = s at *
  -- an error of another package
  have plain : (parseExponentialNotationM s).forget = .err .plain → TooLarge ms es := by
    intro k
    rw [k] at hcases
    rcases hcases with ⟨h, -⟩ | ⟨-, -, h⟩ | ⟨-, -, -, h⟩ | ⟨v, -, h⟩
    · exact h
    · cases h
    · injection h with h; cases h
    · cases h
  by_cases h63 : 2 ^ 63 ≤ value10 es
  · rw [if_pos h63] at hX
    rw [hlarge (plain hX) _ (.exponent h63)]
    have hb : BadExponent (ec :: es.map dig) _ := .large ec (by rcases hec with rfl | rfl <;> decide) (es.map dig) false es he [] (fun _ _ _ e => by cases e)
      (by simpa [signed] using form_sign false he []) (fun _ => h63) (fun k => by cases k)
    have := (C106_outcome (ascii s)).2.1 _ _ (by rw [hbc]; exact .exponent neg _ _ _ ms 0 hsg hmn hm.1 hb) (isUtf8_iff.2 rfl)
    rw [this]
    rfl
  rw [if_neg h63] at hX
  have hex := form_exponent he hec (by omega)
  have hpf : parseFloat s = _ := parseFloat_eq (fun k => hm.1 (infinite_digits k hsg hmn)) (nonempty_of hsg hmn hm.1) hsg hmn
  rw [if_neg hm.1, exponent_sound hex] at hpf
  simp only [ofParts_nat (m := value10 ms) (d := 0) (n := value10 es) (e := value10 es) (by simp)] at hpf
  cases hf : ofExp (value10 ms) (value10 es) with
  | none =>
    rw [hf] at hX hpf
    rw [hlarge (plain hX) _ (.float (by omega))]
    unfold parseExponentialNotationBytes
    rw [show (ascii s).map byteChar = s from hbc, hpf]
    rfl
  | some f =>
    rw [hf] at hX hpf
    cases f with
    | inf =>
      have : parseExponentialNotationM s = .panic := by
        cases hM : parseExponentialNotationM s with
        | panic => rfl
        | ok v => rw [hM] at hX; cases hX
        | fault f => rw [hM] at hX; cases hX
      rw [this]
      unfold parseExponentialNotationBytes
      rw [show (ascii s).map byteChar = s from hbc, hpf]
      rfl
    | fin q x =>
      have hpf' : parseFloat (byteChars (ascii s)) = .inr (neg, .fin q x) := by rw [hbc]; exact hpf
      rw [finite_said hpf', show Fl.low64 q (x : Int) = low64 q x by unfold Fl.low64; rw [if_pos (by omega)]; rfl]
      simp only [expTail] at hX
      generalize (if neg then wrap64 (-(wrap64 (low64 q x))) else wrap64 (low64 q x)) = v at *
      by_cases k : v > MAX_YEARS ∨ v < 0 - MAX_YEARS
      · rw [if_pos k] at hX ⊢
        cases hM : parseExponentialNotationM s with
        | panic => rw [hM] at hX; cases hX
        | ok v => rw [hM] at hX; cases hX
        | fault f =>
          rw [hM] at hX
          injection hX with hX
          have : f.text = c! "Unsupported EDTF string '" ++ s ++ (c! "' (" ++ c! "exponential notation" ++ c! ")") := by
            rcases parseExponentialNotationM_fair s f hM with h | h
            · rw [h] at hX; cases hX
            · rw [h, hX]
              simp [Unsupported, Err.text, quotedWith]
          show Said.fault _ = Said.fault (encode f.text)
          rw [this, ← unsupportedBytes_text, ← encode_ascii ha]
          simp only [unsupportedBytes, encode_append]
      · rw [if_neg k] at hX ⊢
        cases hM : parseExponentialNotationM s with
        | panic => rw [hM] at hX; cases hX
        | fault f => rw [hM] at hX; cases hX
        | ok w => rw [hM] at hX; injection hX with hX; rw [hX]; rfl

example : parseExponentialNotationBytes (ascii (c! "-17e2")) = .ok (-1700) := by decide +kernel
example : (parseExponentialNotationM (c! "-17e2")).bytes = parseExponentialNotationBytes (ascii (c! "-17e2")) :=
  (C106_form true (.inr rfl) (ms := [1, 7]) (es := [2]) ⟨by decide, by decide⟩ ⟨by decide, by decide⟩).symm

/-! ### Panics -/

theorem round_finite {m : Nat} {e : Int} (h : (bitLen m : Int) + e < maxExp) : Fl.round 64 m e ≠ .inf := by
  unfold Fl.round
  by_cases hs : bitLen m ≤ 64
  · rw [roundMant_short hs]
    simp only
    rw [if_neg (by omega)]
    split <;> nofun
  · rw [roundMant_long (by omega)]
    simp only
    have hq := (roundQ_bounds 64 m).2
    have hd : m / 2 ^ (bitLen m - 64) < 2 ^ 64 := by
      apply bitLen_le.1
      rw [bitLen_div (by omega)]
      omega
    have : bitLen (roundQ 64 m) ≤ 65 := bitLen_le.2 (by omega)
    rw [if_neg (by omega)]
    split <;> nofun

theorem quo_finite {m p x : Nat} {e : Int} (hm : m ≠ 0) (h : (bitLen m : Int) + e < maxExp) : Fl.quo 64 m e p x ≠ .inf := by
  unfold Fl.quo
  simp only
  generalize hs : 2 * 64 + bitLen p = s
  apply round_finite
  have hb : bitLen (2 * (m * 2 ^ s / p) + (if m * 2 ^ s % p = 0 then 0 else 1)) ≤ bitLen m + s + 1 := by
    apply bitLen_le.2
    have a2 : m * 2 ^ s < 2 ^ (bitLen m + s) := by
      rw [Nat.pow_add]; exact Nat.mul_lt_mul_of_pos_right (lt_two_pow_bitLen m) (Nat.two_pow_pos _)
    rw [Nat.pow_succ]
    by_cases hr : m * 2 ^ s % p = 0
    · rw [if_pos hr]
      have := Nat.div_le_self (m * 2 ^ s) p
      omega
    · rw [if_neg hr]
      by_cases p0 : p = 0
      · subst p0
        rw [Nat.div_zero]
        omega
      · have p1 : p ≠ 1 := by rintro rfl; omega
        have a1 : m * 2 ^ s / p ≤ m * 2 ^ s / 2 := Nat.div_le_div_left (by omega) (by decide)
        omega
  omega

/-- **C106**: a number does not make it panic unless its exponent is very large. -/
theorem C106_panic {b : Bytes} {neg bin : Bool} {ds : List Nat} {d : Nat} {e : Int} (h : NumberThen (byteChars b) neg ds d bin e [])
    (h1 : (Nat.log2 (value10 ds) : Int) + 1 + (e - d) < 2 ^ 31 - 1) (h2 : bin = true ∨ (Nat.log2 (value10 ds) : Int) + 1 + 4 * (e - d) < 2 ^ 31 - 1) :
    parseExponentialNotationBytes b ≠ .panic := by
  obtain ⟨f, hf, hp⟩ := number_sound h
  have hmax : (maxExp : Int) = 2 ^ 31 - 1 := by decide
  have hfin : f ≠ .inf := by
    generalize value10 ds = m at *
    by_cases hm : m = 0
    · subst hm
      unfold Fl.ofParts at hf
      rw [if_pos rfl] at hf
      injection hf with hf
      rw [← hf]; nofun
    have hb : (bitLen m : Int) = (Nat.log2 m : Int) + 1 := by unfold bitLen; rw [if_neg hm]; rfl
    by_cases hn : bin = false ∧ 0 ≤ e - (d : Int)
    · obtain ⟨rfl, hn⟩ := hn
      obtain ⟨n, hn⟩ : ∃ n : Nat, e - d = n := ⟨(e - d).toNat, by omega⟩
      rcases h2 with h2 | h2
      · cases h2
      obtain ⟨q, x, k⟩ := ofExp_fin (m := m) (e := n) (by omega)
      rw [ofParts_nat hn, k] at hf
      injection hf with hf
      rw [← hf]
      show Fl.fin q x ≠ .inf
      nofun
    · unfold Fl.ofParts at hf
      rw [if_neg hm] at hf
      simp only at hf
      by_cases hr : (bitLen m : Int) + (e - d) < Fl.minExp ∨ (bitLen m : Int) + (e - d) > maxExp
      · rw [if_pos hr] at hf; cases hf
      rw [if_neg hr] at hf
      have hy : (if bin = true then -(d : Int) else e - d) ≤ 0 := by
        cases bin with
        | true => rw [if_pos rfl]; omega
        | false =>
          rw [if_neg (by decide)]
          have : ¬ 0 ≤ e - (d : Int) := fun k => hn ⟨rfl, k⟩
          omega
      generalize (if bin = true then -(d : Int) else e - d) = y at *
      by_cases hy0 : y = 0
      · rw [if_pos hy0] at hf
        injection hf with hf
        rw [← hf]
        exact round_finite (by omega)
      · rw [if_neg hy0] at hf
        cases hP : BF.pow5 y.natAbs with
        | inf =>
          rw [hP] at hf
          simp only [if_pos (show y < 0 by omega)] at hf
          injection hf with hf
          rw [← hf]; nofun
        | fin p x =>
          rw [hP] at hf
          simp only [if_pos (show y < 0 by omega)] at hf
          injection hf with hf
          rw [← hf]
          exact quo_finite hm (by omega)
  cases f with
  | inf => exact absurd rfl hfin
  | fin q x =>
    rw [finite_said hp]
    by_cases k : (if neg then wrap64 (-(wrap64 (Fl.low64 q x))) else wrap64 (Fl.low64 q x)) > MAX_YEARS ∨
       (if neg then wrap64 (-(wrap64 (Fl.low64 q x))) else wrap64 (Fl.low64 q x)) < 0 - MAX_YEARS
    · rw [if_pos k]; nofun
    · rw [if_neg k]; nofun

example : parseExponentialNotationBytes (ascii (c! "-15p-2")) ≠ .panic := C106_panic (b := ascii (c! "-15p-2")) number_15p (by decide) (.inl rfl)

end EDTF
