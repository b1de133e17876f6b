/- Lemmas for C104: the runes of a part of a string of bytes, and splitting. -/
import Verif.BytesDirect
import Verif.PropsBytes
namespace EDTF
open Spec

/-! ### Parts of a string -/

theorem second_cont {b0 b1 : UInt8} (h : isSecond b0 b1 = true) : isCont b1 = true := by
  unfold isSecond at h
  unfold isCont at h ⊢
  simp only [Bool.and_eq_true, Nat.ble_eq] at *
  repeat' split at h
  all_goals simp only [Bool.and_eq_true, Nat.ble_eq] at h
  all_goals omega

/-- No byte of `w` belongs to a rune that begins before it. -/
def NewRune (w : Bytes) : Prop := ∀ x y, w = x :: y → isCont x = false

theorem decode_append {b0 : UInt8} {rest w : Bytes} (hw : NewRune w) :
    decodeRune b0 (rest ++ w) = (decodeRune b0 rest).map fun p => (p.1, p.2 ++ w) := by
  have ns : ∀ x y, w = x :: y → isSecond b0 x = false := by
    intro x y e
    cases hh : isSecond b0 x with
    | false => rfl
    | true => exact absurd (second_cont hh) (by rw [hw x y e]; decide)
  unfold decodeRune
  by_cases h1 : b0.toNat < 0x80
  · simp [h1]
  by_cases h2 : b0.toNat < 0xC2
  · simp [h1, h2]
  by_cases h3 : b0.toNat < 0xE0
  · simp only [h1, h2, h3, if_true, if_false]
    cases rest with
    | nil =>
      cases w with
      | nil => rfl
      | cons x y => simp [hw x y rfl]
    | cons b1 r => cases hc : isCont b1 <;> simp [hc]
  by_cases h4 : b0.toNat < 0xF0
  · simp only [h1, h2, h3, h4, if_true, if_false]
    match rest with
    | [] =>
      match w, hw, ns with
      | [], _, _ => rfl
      | [_], _, _ => rfl
      | x :: _ :: _, _, ns => simp [ns x _ rfl]
    | [b1] =>
      match w, hw, ns with
      | [], _, _ => rfl
      | x :: _, hw, _ => simp [hw x _ rfl]
    | b1 :: b2 :: r => cases hc : (isSecond b0 b1 && isCont b2) <;> simp [hc]
  by_cases h5 : b0.toNat < 0xF5
  · simp only [h1, h2, h3, h4, h5, if_true, if_false]
    match rest with
    | [] =>
      match w, hw, ns with
      | [], _, _ => rfl
      | [_], _, _ => rfl
      | [_, _], _, _ => rfl
      | x :: _ :: _ :: _, _, ns => simp [ns x _ rfl]
    | [b1] =>
      match w, hw, ns with
      | [], _, _ => rfl
      | [_], _, _ => rfl
      | x :: _ :: _, hw, _ => simp [hw x _ rfl]
    | [b1, b2] =>
      match w, hw, ns with
      | [], _, _ => rfl
      | x :: _, hw, _ => simp [hw x _ rfl]
    | b1 :: b2 :: b3 :: r => cases hc : (isSecond b0 b1 && isCont b2 && isCont b3) <;> simp [hc]
  · simp [h1, h2, h3, h4, h5]

/-- The runes of two strings, the second of which begins a rune. -/
theorem runes_two {w : Bytes} (hw : NewRune w) : ∀ (n : Nat) (v : Bytes), v.length ≤ n → runes (v ++ w) = runes v ++ runes w := by
  intro n
  induction n with
  | zero =>
    intro v h
    cases v with
    | nil => rfl
    | cons => simp at h
  | succ n ih =>
    intro v h
    cases v with
    | nil => rfl
    | cons b0 rest =>
      simp only [List.length_cons] at h
      have e := decode_append (b0 := b0) (rest := rest) hw
      rw [List.cons_append]
      cases hd : decodeRune b0 rest with
      | none =>
        rw [hd] at e
        rw [runes_bad e, runes_bad hd, ih rest (by omega)]
        rfl
      | some p =>
        obtain ⟨c, r⟩ := p
        rw [hd] at e
        have hl := (decode_sound hd).2
        rw [runes_cons e, runes_cons hd, ih r (by omega)]
        rfl

theorem newRune_nil : NewRune [] := by intro x y e; cases e

theorem newRune_ascii {x : UInt8} {y : Bytes} (h : x.toNat < 0x80) : NewRune (x :: y) := by
  intro x' y' e
  cases e
  unfold isCont
  cases hh : Nat.ble 0x80 x.toNat with
  | false => rfl
  | true => exact absurd (Nat.le_of_ble_eq_true hh) (by omega)

theorem newRune_encode (s : Str) : NewRune (encode s) := by
  intro x y e
  cases s with
  | nil => cases e
  | cons c s =>
    have hb : (encode (c :: s)).map UInt8.toNat = utf8 c ++ (encode s).map UInt8.toNat := by
      rw [show encode (c :: s) = encodeRune c ++ encode s by unfold encode; rw [List.flatMap_cons], List.map_append, encodeRune_utf8]
    obtain ⟨b0, t, hbt, hdec⟩ := decode_complete c hb
    rw [hbt] at e
    cases e
    cases hc : isCont x with
    | false => rfl
    | true =>
      unfold isCont at hc
      simp only [Bool.and_eq_true, Nat.ble_eq] at hc
      unfold decodeRune at hdec
      rw [if_neg (by omega), if_pos (by omega)] at hdec
      cases hdec

theorem encode_one (c : Char) (s : Str) : encode (c :: s) = encode [c] ++ encode s := by
  rw [← encode_append]; rfl

theorem decode_split {b0 : UInt8} {rest r : Bytes} {c : Char} (h : decodeRune b0 rest = some (c, r)) : b0 :: rest = encode [c] ++ r := by
  apply toNat_map_inj
  rw [(decode_sound h).1, List.map_append, encode_isUtf8 [c]]
  simp

theorem runes_nil {b : Bytes} : runes b = [] ↔ b = [] := by
  constructor
  · intro h
    cases b with
    | nil => rfl
    | cons b0 rest =>
      cases hd : decodeRune b0 rest with
      | none => rw [runes_bad hd] at h; cases h
      | some p => obtain ⟨c, r⟩ := p; rw [runes_cons hd] at h; cases h
  · rintro rfl; rfl

/-- A beginning of the runes is a beginning of the bytes. -/
theorem runes_prefix : ∀ (u : Str) {b : Bytes} {r : Str}, runeError ∉ u → runes b = u ++ r → ∃ w, b = encode u ++ w ∧ runes w = r := by
  intro u
  induction u with
  | nil => intro b r _ h; exact ⟨b, rfl, h⟩
  | cons c u ih =>
    intro b r hn h
    cases b with
    | nil => cases h
    | cons b0 rest =>
      cases hd : decodeRune b0 rest with
      | none =>
        rw [runes_bad hd, List.cons_append] at h
        injection h with h1 h2
        exact absurd (by rw [h1]; simp) hn
      | some p =>
        obtain ⟨c', r'⟩ := p
        rw [runes_cons hd, List.cons_append] at h
        injection h with h1 h2
        obtain ⟨w, hw, hr⟩ := ih (fun k => hn (List.mem_cons_of_mem _ k)) h2
        exact ⟨w, by rw [decode_split hd, hw, h1, encode_one c u, List.append_assoc], hr⟩

/-- An end of the runes is an end of the bytes. -/
theorem runes_suffix : ∀ (p : Str) {b : Bytes} {q : Str}, runes b = p ++ q → ∃ v w, b = v ++ w ∧ runes w = q := by
  intro p
  induction p with
  | nil => intro b q h; exact ⟨[], b, rfl, h⟩
  | cons c p ih =>
    intro b q h
    cases b with
    | nil => cases h
    | cons b0 rest =>
      cases hd : decodeRune b0 rest with
      | none =>
        rw [runes_bad hd, List.cons_append] at h
        injection h with h1 h2
        obtain ⟨v, w, rfl, e⟩ := ih h2
        exact ⟨b0 :: v, w, rfl, e⟩
      | some p =>
        obtain ⟨c', r'⟩ := p
        rw [runes_cons hd, List.cons_append] at h
        injection h with h1 h2
        obtain ⟨v, w, hv, e⟩ := ih h2
        exact ⟨encode [c'] ++ v, w, by rw [decode_split hd, hv, List.append_assoc], e⟩

theorem runes_whole {b : Bytes} {s : Str} (hn : runeError ∉ s) (h : runes b = s) : b = encode s := by
  obtain ⟨w, hw, hr⟩ := runes_prefix s (r := []) hn (by rw [h, List.append_nil])
  rw [hw, runes_nil.1 hr, List.append_nil]

/-! ### Splitting -/

theorem splitByte_ne (sep : UInt8) (b : Bytes) : splitByte sep b ≠ [] := by
  cases b with
  | nil => simp [splitByte]
  | cons c cs =>
    unfold splitByte
    split
    · simp
    · split <;> simp

theorem splitByte_none {sep : UInt8} : ∀ {b : Bytes}, sep ∉ b → splitByte sep b = [b] := by
  intro b
  induction b with
  | nil => intro _; rfl
  | cons c cs ih =>
    intro h
    unfold splitByte
    rw [if_neg (fun e => h (by rw [e]; simp)), ih (fun k => h (List.mem_cons_of_mem _ k))]

theorem splitByte_some {sep : UInt8} : ∀ {p : Bytes} (q : Bytes), sep ∉ p → splitByte sep (p ++ sep :: q) = p :: splitByte sep q := by
  intro p
  induction p with
  | nil => intro q _; simp [splitByte]
  | cons c cs ih =>
    intro q h
    rw [List.cons_append, splitByte.eq_def]
    simp only
    rw [if_neg (fun e => h (by rw [e]; simp)), ih q (fun k => h (List.mem_cons_of_mem _ k))]

theorem split_once {α : Type} [DecidableEq α] {a : α} : ∀ {l : List α}, a ∈ l → ∃ p q, l = p ++ a :: q ∧ a ∉ p := by
  intro l
  induction l with
  | nil => intro h; cases h
  | cons x l ih =>
    intro h
    by_cases e : x = a
    · exact ⟨[], l, by rw [e]; rfl, by simp⟩
    · have : a ∈ l := by
        rcases List.mem_cons.1 h with k | k
        · exact absurd k.symm e
        · exact k
      obtain ⟨p, q, rfl, hp⟩ := ih this
      exact ⟨x :: p, q, rfl, by simp only [List.mem_cons, not_or]; exact ⟨fun k => e k.symm, hp⟩⟩

theorem mem_runes {c : Char} (hc : c.toNat < 0x80) {b : Bytes} : c ∈ runes b ↔ UInt8.ofNat c.toNat ∈ b := by
  have he : encode [c] = [UInt8.ofNat c.toNat] := by rw [encode_ascii (by simpa using hc)]; rfl
  have hr : runeError ∉ [c] := by
    intro k
    rw [List.mem_singleton] at k
    rw [← k] at hc
    exact absurd hc (by decide)
  constructor
  · intro h
    obtain ⟨p, q, e, -⟩ := split_once h
    obtain ⟨v, w, rfl, hw⟩ := runes_suffix p e
    obtain ⟨w', rfl, -⟩ := runes_prefix [c] hr (r := q) hw
    rw [he]; simp
  · intro h
    obtain ⟨p, q, rfl, -⟩ := split_once h
    have hx : (UInt8.ofNat c.toNat).toNat = c.toNat := by simp; omega
    rw [runes_two (newRune_ascii (by omega)) _ _ (Nat.le_refl _), show UInt8.ofNat c.toNat :: q = encode [c] ++ q by rw [he]; rfl, runes_append]
    simp

theorem splitAt_none {sep : Char} : ∀ {s : Str}, sep ∉ s → splitChar sep s = [s] := by
  intro s
  induction s with
  | nil => intro _; rfl
  | cons c cs ih =>
    intro h
    unfold splitChar
    rw [if_neg (fun e => h (by rw [e]; simp)), ih (fun k => h (List.mem_cons_of_mem _ k))]

theorem splitAt_some {sep : Char} : ∀ {p : Str} (q : Str), sep ∉ p → splitChar sep (p ++ sep :: q) = p :: splitChar sep q := by
  intro p
  induction p with
  | nil => intro q _; simp [splitChar]
  | cons c cs ih =>
    intro q h
    rw [List.cons_append, splitChar.eq_def]
    simp only
    rw [if_neg (fun e => h (by rw [e]; simp)), ih q (fun k => h (List.mem_cons_of_mem _ k))]

/-- Splitting the bytes at an ASCII character is splitting the runes. -/
theorem split_runes {c : Char} (hc : c.toNat < 0x80) : ∀ (n : Nat) (b : Bytes), b.length ≤ n →
    splitChar c (runes b) = (splitByte (.ofNat c.toNat) b).map runes := by
  have he : encode [c] = [UInt8.ofNat c.toNat] := by rw [encode_ascii (by simpa using hc)]; rfl
  intro n
  induction n with
  | zero =>
    intro b h
    cases b with
    | nil => rfl
    | cons => simp at h
  | succ n ih =>
    intro b h
    by_cases hm : UInt8.ofNat c.toNat ∈ b
    · obtain ⟨p, q, rfl, hp⟩ := split_once hm
      have hx : (UInt8.ofNat c.toNat).toNat = c.toNat := by simp; omega
      simp only [List.length_append, List.length_cons] at h
      rw [runes_two (newRune_ascii (by omega)) _ _ (Nat.le_refl _), show UInt8.ofNat c.toNat :: q = encode [c] ++ q by rw [he]; rfl, runes_append,
        List.singleton_append, splitAt_some _ (fun k => hp ((mem_runes hc).1 k)), he, List.singleton_append, splitByte_some _ hp, ih q (by omega)]
      rfl
    · rw [splitByte_none hm, splitAt_none (fun k => hm ((mem_runes hc).1 k))]
      rfl

/-- The parts of UTF-8 are UTF-8. -/
theorem split_encode {c : Char} (hc : c.toNat < 0x80) : ∀ (n : Nat) (s : Str), s.length ≤ n →
    splitByte (.ofNat c.toNat) (encode s) = (splitChar c s).map encode := by
  have he : encode [c] = [UInt8.ofNat c.toNat] := by rw [encode_ascii (by simpa using hc)]; rfl
  have hne : ∀ s, c ∉ s → UInt8.ofNat c.toNat ∉ encode s := fun s h k => h (by rw [← runes_encode s]; exact (mem_runes hc).2 k)
  intro n
  induction n with
  | zero =>
    intro s h
    cases s with
    | nil => rfl
    | cons => simp at h
  | succ n ih =>
    intro s h
    by_cases hm : c ∈ s
    · obtain ⟨p, q, rfl, hp⟩ := split_once hm
      simp only [List.length_append, List.length_cons] at h
      rw [splitAt_some _ hp, encode_append, encode_one c q, he, List.singleton_append, splitByte_some _ (hne p hp), ih q (by omega)]
      rfl
    · rw [splitAt_none hm, splitByte_none (hne s hm)]
      rfl

end EDTF
