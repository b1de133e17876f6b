/- C106: ParseExponentialNotation on every string. -/
import Verif.LemmasFloat
namespace EDTF
open Spec BF

/-! ### Floats -/

theorem roundMant_short {prec m : Nat} (h : bitLen m ≤ prec) : Fl.roundMant prec m = (m, 0) := by
  unfold Fl.roundMant
  simp only [if_pos h]

theorem roundMant_long {prec m : Nat} (h : prec < bitLen m) : Fl.roundMant prec m = (roundQ prec m, bitLen m - prec) := by
  unfold Fl.roundMant roundQ
  simp only [if_neg (show ¬ bitLen m ≤ prec by omega)]

/-- The float with an integer exponent. -/
def toFl : BF → Fl
  | .fin m e => .fin m e
  | .inf => .inf

theorem round_toFl (prec m e : Nat) : Fl.round prec m e = toFl (BF.round prec m e) := by
  unfold Fl.round
  by_cases h : bitLen m ≤ prec
  · rw [roundMant_short h, round_exact h]
    simp only
    by_cases k : bitLen m + e > maxExp
    · rw [if_pos k, if_pos (by omega)]; rfl
    · rw [if_neg k, if_neg (by omega), if_neg (by unfold Fl.minExp; omega)]
      show Fl.fin m ((e : Int) + (0 : Nat)) = Fl.fin m e
      simp
  · rw [roundMant_long (by omega), round_long (by omega)]
    simp only
    by_cases k : bitLen (roundQ prec m) + (e + (bitLen m - prec)) > maxExp
    · rw [if_pos k, if_pos (by omega)]; rfl
    · rw [if_neg k, if_neg (by omega), if_neg (by unfold Fl.minExp; omega)]
      show Fl.fin _ _ = Fl.fin _ _
      congr 1

/-- With a decimal exponent that is not less than the number of digits after the point. -/
theorem ofParts_nat {m d n : Nat} {e : Int} (h : e - d = n) : Fl.ofParts m d false e = (ofExp m n).map toFl := by
  unfold Fl.ofParts ofExp
  by_cases h0 : m = 0
  · rw [if_pos h0, if_pos h0]; rfl
  rw [if_neg h0, if_neg h0]
  simp only [h, if_neg (show ¬ false = true by decide)]
  by_cases h1 : bitLen m + n > maxExp
  · rw [if_pos h1, if_pos (.inr (by omega))]; rfl
  rw [if_neg h1, if_neg (by unfold Fl.minExp; omega)]
  by_cases h2 : n = 0
  · subst h2
    rw [if_pos (show ((0 : Nat) : Int) = 0 from rfl), if_pos rfl]
    exact congrArg some (round_toFl 64 m 0)
  rw [if_neg h2, if_neg (by omega), show (n : Int).natAbs = n from rfl]
  cases BF.pow5 n with
  | inf => simp only [if_neg (show ¬ (n : Int) < 0 by omega)]; rfl
  | fin p x =>
    simp only [if_neg (show ¬ (n : Int) < 0 by omega)]
    show some (Fl.round 64 (m * p) ((n : Int) + x)) = some (toFl (BF.round 64 (m * p) (n + x)))
    rw [← round_toFl]
    rfl

theorem ofParts_none {m d : Nat} {bin : Bool} {e : Int} : Fl.ofParts m d bin e = none ↔
    m ≠ 0 ∧ ((Nat.log2 m : Int) + 1 + (e - d) < -2 ^ 31 ∨ 2 ^ 31 - 1 < (Nat.log2 m : Int) + 1 + (e - d)) := by
  unfold Fl.ofParts
  by_cases h0 : m = 0
  · rw [if_pos h0]
    exact ⟨(fun k => by cases k), fun k => absurd h0 k.1⟩
  rw [if_neg h0]
  have hb : (bitLen m : Int) = (Nat.log2 m : Int) + 1 := by unfold bitLen; rw [if_neg h0]; rfl
  simp only [hb]
  by_cases h1 : (Nat.log2 m : Int) + 1 + (e - d) < Fl.minExp ∨ (Nat.log2 m : Int) + 1 + (e - d) > maxExp
  · rw [if_pos h1]
    have : (-2 ^ 31 : Int) = Fl.minExp := rfl
    have k2 : ((maxExp : Nat) : Int) = 2 ^ 31 - 1 := by decide
    refine ⟨fun _ => ⟨h0, ?_⟩, fun _ => rfl⟩
    rw [this, ← k2]
    exact h1
  · rw [if_neg h1]
    constructor
    · intro k
      exfalso
      revert k
      generalize (if bin = true then -(d : Int) else e - d) = y
      by_cases hy : y = 0
      · rw [if_pos hy]; intro k; cases k
      · rw [if_neg hy]
        cases BF.pow5 y.natAbs <;> (intro k; cases k)
    · rintro ⟨-, k⟩
      have k2 : ((maxExp : Nat) : Int) = 2 ^ 31 - 1 := by decide
      exact absurd k (by rw [← k2]; exact h1)

/-! ### Numbers and other strings -/

theorem infinite_sound {s : Str} (h : s ∈ infinities) : ∃ neg, parseFloat s = .inr (neg, .inf) := by
  simp only [infinities, List.mem_cons, List.not_mem_nil, or_false] at h
  rcases h with rfl | rfl | rfl | rfl | rfl | rfl
  · exact ⟨false, rfl⟩
  · exact ⟨false, rfl⟩
  · exact ⟨false, rfl⟩
  · exact ⟨false, rfl⟩
  · exact ⟨true, rfl⟩
  · exact ⟨true, rfl⟩

theorem infinite_digits {s : Str} (h : s ∈ infinities) {neg : Bool} {t u : Str} {ds : List Nat} {d : Nat} (ht : SignThen s neg t) (hu : MantissaThen t ds d u) :
    ds = [] := by
  have e : (scanMantissa (scanSign s).2).1 = ds.map dig := by rw [sign_sound ht, mantissa_sound hu]
  have : ∀ s ∈ infinities, (scanMantissa (scanSign s).2).1 = [] := by decide
  rw [this s h] at e
  simpa using e.symm

/-- The steps of the function for a string that is no infinity. -/
theorem parseFloat_eq {s : Str} (hi : s ∉ infinities) (h0 : s ≠ []) {neg : Bool} {t u : Str} {ds : List Nat} {d : Nat} (ht : SignThen s neg t)
    (hu : MantissaThen t ds d u) : parseFloat s =
      if ds = [] then .inl (c! "number has no digits")
      else match scanExponent u with
        | .err w => .inl w
        | .ok bin e rest =>
          match Fl.ofParts (value10 ds) d bin e with
          | none => .inl (c! "exponent overflow")
          | some f =>
            match rest with
            | [] => .inr (neg, f)
            | c :: _ => .inl (c! "expected end of string, found " ++ quoteByte c) := by
  simp only [infinities, List.mem_cons, List.not_mem_nil, or_false, not_or] at hi
  unfold parseFloat
  rw [if_neg (by simp [hi.1, hi.2.1, hi.2.2.1, hi.2.2.2.1]), if_neg (by simp [hi.2.2.2.2.1, hi.2.2.2.2.2]), if_neg h0]
  simp only [sign_sound ht, mantissa_sound hu, List.map_eq_nil_iff, digitsVal_map ds (mantissa_digits hu)]
  by_cases hd : ds = []
  · rw [if_pos hd, if_pos hd]
  rw [if_neg hd, if_neg hd]
  cases scanExponent u with
  | err w => rfl
  | ok bin e rest =>
    simp only
    cases Fl.ofParts (value10 ds) d bin e with
    | none => rfl
    | some f => cases rest <;> rfl

theorem nonempty_of {s t u : Str} {neg : Bool} {ds : List Nat} {d : Nat} (ht : SignThen s neg t) (hu : MantissaThen t ds d u) (h : ds ≠ []) : s ≠ [] := by
  rintro rfl
  have e := sign_sound ht
  cases e
  have e' := mantissa_sound hu
  injection e' with e' _
  exact h (by simpa using e'.symm)

theorem says_sound {s w : Str} (h : NotationSays s w) : parseFloat s = .inl w := by
  cases h with
  | empty h => subst h; rfl
  | digits h0 hi neg t u d ht hu => rw [parseFloat_eq hi h0 ht hu, if_pos rfl]
  | exponent neg t u w ds d ht hu h hw =>
    rw [parseFloat_eq (fun k => h (infinite_digits k ht hu)) (nonempty_of ht hu h) ht hu, if_neg h, badExponent_sound hw]
  | overflow neg bin t u rest ds d e ht hu h he h0 hr =>
    rw [parseFloat_eq (fun k => h (infinite_digits k ht hu)) (nonempty_of ht hu h) ht hu, if_neg h, exponent_sound he]
    simp only [ofParts_none.2 ⟨h0, hr⟩]
  | extra neg bin ds d e c rest q h hq =>
    obtain ⟨t, u, ht, hu, h, he, hr⟩ := h
    rw [parseFloat_eq (fun k => h (infinite_digits k ht hu)) (nonempty_of ht hu h) ht hu, if_neg h, exponent_sound he]
    simp only
    cases hf : Fl.ofParts (value10 ds) d bin e with
    | none => have := ofParts_none.1 hf; omega
    | some f => simp only [quotedByte_sound hq]

theorem number_sound {s : Str} {neg bin : Bool} {ds : List Nat} {d : Nat} {e : Int} (h : NumberThen s neg ds d bin e []) :
    ∃ f, Fl.ofParts (value10 ds) d bin e = some f ∧ parseFloat s = .inr (neg, f) := by
  obtain ⟨t, u, ht, hu, h, he, hr⟩ := h
  rw [parseFloat_eq (fun k => h (infinite_digits k ht hu)) (nonempty_of ht hu h) ht hu, if_neg h, exponent_sound he]
  simp only
  cases hf : Fl.ofParts (value10 ds) d bin e with
  | none => have := ofParts_none.1 hf; omega
  | some f => exact ⟨f, rfl, rfl⟩

theorem notation_total (s : Str) : s ∈ infinities ∨ (∃ w, NotationSays s w) ∨ ∃ neg ds d bin e, NumberThen s neg ds d bin e [] := by
  by_cases hi : s ∈ infinities
  · exact .inl hi
  right
  by_cases h0 : s = []
  · exact .inl ⟨_, .empty h0⟩
  have ht := sign_total s
  generalize (scanSign s).1 = neg at ht
  generalize (scanSign s).2 = t at ht
  obtain ⟨ds, d, u, hu⟩ := mantissa_total t
  by_cases hd : ds = []
  · subst hd
    exact .inl ⟨_, .digits h0 hi neg t u d ht hu⟩
  rcases exponent_total u with ⟨bin, e, rest, he⟩ | ⟨w, hw⟩
  · by_cases hr : value10 ds = 0 ∨ (-2 ^ 31 ≤ (Nat.log2 (value10 ds) : Int) + 1 + (e - d) ∧ (Nat.log2 (value10 ds) : Int) + 1 + (e - d) ≤ 2 ^ 31 - 1)
    · have hn : NumberThen s neg ds d bin e rest := ⟨t, u, ht, hu, hd, he, hr⟩
      cases rest with
      | nil => exact .inr ⟨_, _, _, _, _, hn⟩
      | cons c rest =>
        obtain ⟨q, hq⟩ := quotedByte_total c
        exact .inl ⟨_, .extra neg bin ds d e c rest q hn hq⟩
    · exact .inl ⟨_, .overflow neg bin t u rest ds d e ht hu hd he (by omega) (by omega)⟩
  · exact .inl ⟨w, .exponent neg t u w ds d ht hu hd hw⟩

theorem unsupportedBytes_text (b : Bytes) : unsupportedBytes (c! "exponential notation") b = unsupportedBytesText b := by
  unfold unsupportedBytes unsupportedBytesText
  rw [encode_ascii (s := c! "Unsupported EDTF string '") (by decide), encode_ascii (s := c! "' (" ++ c! "exponential notation" ++ c! ")") (by decide)]
  rfl

/-- What is done with a finite value. -/
theorem finite_said {b : Bytes} {neg : Bool} {m : Nat} {x : Int} (h : parseFloat (byteChars b) = .inr (neg, .fin m x)) : parseExponentialNotationBytes b =
    if (if neg then wrap64 (-(wrap64 (Fl.low64 m x))) else wrap64 (Fl.low64 m x)) > MAX_YEARS ∨
       (if neg then wrap64 (-(wrap64 (Fl.low64 m x))) else wrap64 (Fl.low64 m x)) < 0 - MAX_YEARS then .fault (unsupportedBytesText b)
    else .ok (if neg then wrap64 (-(wrap64 (Fl.low64 m x))) else wrap64 (Fl.low64 m x)) := by
  unfold parseExponentialNotationBytes
  rw [show b.map byteChar = byteChars b from rfl, h, ← unsupportedBytes_text]

/-- **C106**: every string is the name of an infinity, a number, or one of those of which an error is
said, and only one of these; what is said is unique. -/
theorem C106_kinds (s : Str) :
    (s ∈ infinities ∨ (∃ w, NotationSays s w) ∨ ∃ neg ds d bin e, NumberThen s neg ds d bin e []) ∧
    ¬ (s ∈ infinities ∧ ∃ w, NotationSays s w) ∧ ¬ (s ∈ infinities ∧ ∃ neg ds d bin e, NumberThen s neg ds d bin e []) ∧
    ¬ ((∃ w, NotationSays s w) ∧ ∃ neg ds d bin e, NumberThen s neg ds d bin e []) ∧ (∀ v w, NotationSays s v → NotationSays s w → v = w) := by
  refine ⟨notation_total s, ?_, ?_, ?_, ?_⟩
  · rintro ⟨h, w, k⟩
    obtain ⟨neg, e⟩ := infinite_sound h
    rw [says_sound k] at e
    cases e
  · rintro ⟨h, neg, ds, d, bin, e, t, u, ht, hu, h', -⟩
    exact h' (infinite_digits h ht hu)
  · rintro ⟨⟨w, k⟩, neg, ds, d, bin, e, h⟩
    obtain ⟨f, -, e⟩ := number_sound h
    rw [says_sound k] at e
    cases e
  · intro v w h k
    have e := says_sound h
    rw [says_sound k] at e
    injection e with e
    exact e.symm

/-- **C106**: the names of infinities make it panic, of the other strings that are no numbers the
error is said, and a number gives a year, is called unsupported, or makes it panic. -/
theorem C106_outcome (b : Bytes) :
    (byteChars b ∈ infinities → parseExponentialNotationBytes b = .panic) ∧
    (∀ w t, NotationSays (byteChars b) w → IsUtf8 t w → parseExponentialNotationBytes b = .fault t) ∧
    (∀ neg ds d bin e, NumberThen (byteChars b) neg ds d bin e [] →
      (∃ v : Int, -9999 ≤ v ∧ v ≤ 9999 ∧ parseExponentialNotationBytes b = .ok v) ∨
      parseExponentialNotationBytes b = .fault (unsupportedBytesText b) ∨ parseExponentialNotationBytes b = .panic) := by
  refine ⟨?_, ?_, ?_⟩
  · intro h
    obtain ⟨neg, e⟩ := infinite_sound h
    unfold parseExponentialNotationBytes
    rw [show b.map byteChar = byteChars b from rfl, e]
  · intro w t h ht
    unfold parseExponentialNotationBytes
    rw [show b.map byteChar = byteChars b from rfl, says_sound h, isUtf8_iff.1 ht]
  · intro neg ds d bin e h
    obtain ⟨f, -, hf⟩ := number_sound h
    cases f with
    | inf =>
      right; right
      unfold parseExponentialNotationBytes
      rw [show b.map byteChar = byteChars b from rfl, hf]
    | fin m x =>
      rw [finite_said hf]
      generalize (if neg then wrap64 (-(wrap64 (Fl.low64 m x))) else wrap64 (Fl.low64 m x)) = v
      by_cases k : v > MAX_YEARS ∨ v < 0 - MAX_YEARS
      · rw [if_pos k]; exact .inr (.inl rfl)
      · rw [if_neg k]
        have : MAX_YEARS = 9999 := rfl
        exact .inl ⟨v, by omega, by omega, rfl⟩

example : parseExponentialNotationBytes (ascii (c! "-Inf")) = .panic := (C106_outcome _).1 (by decide)
example : parseExponentialNotationBytes (ascii (c! "1e3x")) = .fault (ascii (c! "expected end of string, found 'x'")) := by decide +kernel
example : parseExponentialNotationBytes (ascii (c! "12") ++ [0x85]) = .fault (ascii (c! "expected end of string, found '\\u0085'")) := by decide +kernel
example : NotationSays (c! "1.5e+") (c! "number has no digits") :=
  .exponent false (c! "1.5e+") (c! "e+") _ [1, 5] 1 (.none _ (fun _ e => by cases e) (fun _ e => by cases e))
    (.point [1] [5] (by decide) (by decide) (c! "e+") (noDigit_of (by decide) _)) (by decide)
    (.empty 'e' (by decide) (c! "+") false [] (fun _ _ _ e => by cases e) (.plus _))

end EDTF
