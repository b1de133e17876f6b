/- Lemmas for C102: the bytes of texts. -/
import Verif.SpecBytes
import Verif.PropsFail
namespace EDTF
open Spec

/-! ### UTF-8 -/

theorem encodeRune_utf8 (c : Char) : (encodeRune c).map UInt8.toNat = utf8 c := by
  have hv := char_valid c
  unfold encodeRune utf8
  simp only
  repeat' split
  all_goals
    simp only [List.map_cons, List.map_nil, UInt8.toNat_ofNat', List.cons.injEq, and_true]
    omega

theorem encode_isUtf8 (s : Str) : IsUtf8 (encode s) s := by
  unfold IsUtf8 encode
  induction s with
  | nil => rfl
  | cons c s ih => rw [List.flatMap_cons, List.map_append, encodeRune_utf8, ih, List.flatMap_cons]

theorem toNat_map_inj {a b : Bytes} (h : a.map UInt8.toNat = b.map UInt8.toNat) : a = b := by
  induction a generalizing b with
  | nil => cases b with
    | nil => rfl
    | cons => cases h
  | cons x a ih => cases b with
    | nil => cases h
    | cons y b =>
      simp only [List.map_cons, List.cons.injEq] at h
      rw [UInt8.toNat_inj.1 h.1, ih h.2]

theorem isUtf8_iff {b : Bytes} {s : Str} : IsUtf8 b s ↔ b = encode s := by
  constructor
  · intro h; exact toNat_map_inj (h.trans (encode_isUtf8 s).symm)
  · rintro rfl; exact encode_isUtf8 s

theorem runes_encode (s : Str) : runes (encode s) = s := (C78_utf8 (encode_isUtf8 s)).1

theorem encode_inj {s t : Str} (h : encode s = encode t) : s = t := by
  rw [← runes_encode s, h, runes_encode]

theorem encode_eq {s t : Str} : encode s = encode t ↔ s = t := ⟨encode_inj, fun h => by rw [h]⟩

@[simp] theorem encode_append (s t : Str) : encode (s ++ t) = encode s ++ encode t := List.flatMap_append

theorem encode_nil : encode [] = [] := rfl

theorem encode_ascii {s : Str} (h : ∀ c ∈ s, c.toNat < 0x80) : encode s = ascii s := by
  unfold encode ascii
  induction s with
  | nil => rfl
  | cons c s ih =>
    rw [List.flatMap_cons, ih (fun d hd => h d (List.mem_cons_of_mem _ hd)), List.map_cons]
    have : encodeRune c = [.ofNat c.toNat] := by unfold encodeRune; rw [if_pos (h c List.mem_cons_self)]
    rw [this]; rfl

/-! ### Bytes that are not a text -/

theorem runesGo_enough : ∀ (n m : Nat) (b : Bytes), b.length ≤ n → b.length ≤ m → runesGo n b = runesGo m b := by
  intro n
  induction n with
  | zero =>
    intro m b h _
    cases b with
    | nil => cases m <;> rfl
    | cons => simp at h
  | succ n ih =>
    intro m b h1 h2
    cases b with
    | nil => cases m <;> rfl
    | cons b0 rest =>
      cases m with
      | zero => simp at h2
      | succ m =>
        simp only [List.length_cons] at h1 h2
        unfold runesGo
        cases hd : decodeRune b0 rest with
        | none => simp only; rw [ih m rest (by omega) (by omega)]
        | some p =>
          obtain ⟨c, r⟩ := p
          have hl := (decode_sound hd).2
          simp only
          rw [ih m r (by omega) (by omega)]

theorem runes_cons {b0 : UInt8} {rest r : Bytes} {c : Char} (h : decodeRune b0 rest = some (c, r)) : runes (b0 :: rest) = c :: runes r := by
  have hl := (decode_sound h).2
  unfold runes
  rw [List.length_cons]
  rw [runesGo.eq_def]
  simp only [h]
  rw [runesGo_enough _ _ r hl (Nat.le_refl _)]

theorem runes_bad {b0 : UInt8} {rest : Bytes} (h : decodeRune b0 rest = none) : runes (b0 :: rest) = runeError :: runes rest := by
  unfold runes
  rw [List.length_cons]
  rw [runesGo.eq_def]
  simp only [h]

theorem runes_append (u : Str) (w : Bytes) : runes (encode u ++ w) = u ++ runes w := by
  induction u with
  | nil => rfl
  | cons c u ih =>
    have e : encode (c :: u) ++ w = encodeRune c ++ (encode u ++ w) := by
      unfold encode; rw [List.flatMap_cons, List.append_assoc]
    rw [e]
    have hb : (encodeRune c ++ (encode u ++ w)).map UInt8.toNat = utf8 c ++ (encode u ++ w).map UInt8.toNat := by
      rw [List.map_append, encodeRune_utf8]
    obtain ⟨b0, t, hbt, hdec⟩ := decode_complete c hb
    rw [hbt, runes_cons hdec, ih]
    rfl

theorem broken_runes {b : Bytes} {u : Str} (h : BrokenAfter b u) : ∃ v, runes b = u ++ runeError :: v := by
  obtain ⟨v, w, rfl, hu, hw, hn⟩ := h
  rw [isUtf8_iff.1 hu, runes_append]
  cases w with
  | nil => exact absurd rfl hw
  | cons b0 rest =>
    cases hd : decodeRune b0 rest with
    | none => exact ⟨_, by rw [runes_bad hd]⟩
    | some p =>
      obtain ⟨c, r⟩ := p
      exfalso
      have e := (decode_sound hd).1
      have e2 : b0 :: rest = encode [c] ++ r := by
        apply toNat_map_inj
        rw [e, List.map_append, encode_isUtf8 [c]]
        simp
      exact hn c _ _ e2 (encode_isUtf8 _)

theorem utf8_or_broken : ∀ (n : Nat) (b : Bytes), b.length ≤ n → (∃ s, b = encode s) ∨ ∃ u, BrokenAfter b u := by
  intro n
  induction n with
  | zero =>
    intro b h
    cases b with
    | nil => exact .inl ⟨[], rfl⟩
    | cons => simp at h
  | succ n ih =>
    intro b h
    cases b with
    | nil => exact .inl ⟨[], rfl⟩
    | cons b0 rest =>
      simp only [List.length_cons] at h
      cases hd : decodeRune b0 rest with
      | none =>
        right
        refine ⟨[], [], b0 :: rest, rfl, rfl, by simp, ?_⟩
        intro c p q e hp
        have hb : (b0 :: rest).map UInt8.toNat = utf8 c ++ q.map UInt8.toNat := by
          rw [e, List.map_append, hp]; simp
        obtain ⟨b1, t, hbt, hdec⟩ := decode_complete c hb
        injection hbt with h1 h2
        subst h1; subst h2
        rw [hd] at hdec; cases hdec
      | some p =>
        obtain ⟨c, r⟩ := p
        obtain ⟨e, hl⟩ := decode_sound hd
        have e2 : b0 :: rest = encodeRune c ++ r := by
          apply toNat_map_inj
          rw [e, List.map_append, encodeRune_utf8]
        rcases ih r (by omega) with ⟨s, hs⟩ | ⟨u, v, w, hr, hu, hw, hn⟩
        · exact .inl ⟨c :: s, by rw [e2, hs]; rfl⟩
        · refine .inr ⟨c :: u, encodeRune c ++ v, w, by rw [e2, hr, List.append_assoc], ?_, hw, hn⟩
          rw [isUtf8_iff.1 hu]
          exact isUtf8_iff.2 rfl

theorem broken_not {b : Bytes} {u : Str} (h : BrokenAfter b u) (s : Str) : b ≠ encode s := by
  rintro rfl
  obtain ⟨v, hv⟩ := broken_runes h
  obtain ⟨v', w, e, hu, hw, hn⟩ := h
  rw [isUtf8_iff.1 hu] at e
  have e2 := congrArg runes e
  rw [runes_encode, runes_append] at e2
  subst e2
  rw [encode_append] at e
  have e3 := List.append_cancel_left e
  cases hr : runes w with
  | nil => rw [hr] at e3; exact hw e3.symm
  | cons c r =>
    rw [hr] at e3
    exact hn c (encodeRune c) (encode r) (by rw [← e3]; rfl) (isUtf8_iff.2 (by simp [encode]))

theorem not_utf8 {b : Bytes} : (¬ ∃ s, IsUtf8 b s) ↔ ∃ u, BrokenAfter b u := by
  simp only [isUtf8_iff]
  constructor
  · intro h; exact (utf8_or_broken b.length b (Nat.le_refl _)).resolve_left h
  · rintro ⟨u, h⟩ ⟨s, e⟩; exact broken_not h s e

/-- Where the text breaks off is determined. -/
theorem broken_unique {b : Bytes} {u u' : Str} (h : BrokenAfter b u) (h' : BrokenAfter b u') : u = u' := by
  obtain ⟨v, w, e, hu, hw, hn⟩ := h
  obtain ⟨v', w', e', hu', hw', hn'⟩ := h'
  rw [isUtf8_iff.1 hu] at e
  rw [isUtf8_iff.1 hu'] at e'
  subst e
  clear hu hu'
  induction u generalizing u' with
  | nil => cases u' with
    | nil => rfl
    | cons c u' =>
      exfalso
      have : w = encodeRune c ++ (encode u' ++ w') := by
        simpa [encode] using e'
      exact hn c _ _ this (isUtf8_iff.2 (by simp [encode]))
  | cons c u ih => cases u' with
    | nil =>
      exfalso
      have : w' = encodeRune c ++ (encode u ++ w) := by
        simpa [encode] using e'.symm
      exact hn' c _ _ this (isUtf8_iff.2 (by simp [encode]))
    | cons c' u' =>
      have k := congrArg runes e'
      rw [runes_append, runes_append] at k
      have hc : c = c' := by injection k
      subst hc
      have e2 : encodeRune c ++ (encode u ++ w) = encodeRune c ++ (encode u' ++ w') := by simpa [encode] using e'
      rw [ih (List.append_cancel_left e2)]

/-! ### The tests -/

/-- A string with a foreign character passes no test. -/
theorem foreign_tests {s : Str} {c : Char} (hc : c ∈ s) (h : c ∉ notationChars) :
    L0.isLevel0 s = false ∧ L1.isLevel1 s = false ∧ L2.isExponentialYear s = false ∧ L2.isSignificantDigits s = false ∧
    L2.isSubYearGrouping s = false ∧ L2.isSetRepresentation s = false ∧ L2.isGroupQualification s = false ∧
    L2.isIndividualQualification s = false ∧ L2.isUnspecifiedDigit s = false ∧ L2.isInterval s = false := by
  have k : ∀ (p : Str → Bool) (r : Re), r.inside = true → (p s = true ↔ Lang r s) → p s = false := by
    intro p r hr hp
    cases hh : p s with
    | false => rfl
    | true => exact absurd (lang_inside hr (hp.1 hh) c hc) h
  refine ⟨?_, ?_, k _ _ (by decide +kernel) isExponential_iff, k _ _ (by decide +kernel) isSig_iff, k _ _ (by decide +kernel) isSubYear_iff,
    k _ _ (by decide +kernel) isSet_iff, k _ _ (by decide +kernel) isGroup_iff, k _ _ (by decide +kernel) isIndividual_iff,
    k _ _ (by decide +kernel) isUnspecifiedDigit_iff, k _ _ (by decide +kernel) isInterval_iff⟩
  · cases hh : L0.isLevel0 s with
    | false => rfl
    | true => exact absurd (level0_inside hh c hc) h
  · cases hh : L1.isLevel1 s with
    | false => rfl
    | true => exact absurd (level1_inside hh c hc) h

theorem foreign_level2 {u v : Str} {c : Char} (h : c ∉ notationChars) : L2.isLevel2 (u ++ c :: v) = L2.isLevel2 u := by
  have : L2.isLevel2 (u ++ c :: v) = true ↔ L2.isLevel2 u = true := by
    rw [level2_prefix, level2_prefix]
    constructor
    · rintro ⟨a, b, e, l⟩
      have hl : a.length ≤ u.length := by
        apply Nat.not_lt.1
        intro hlt
        have hm : c ∈ a := by
          have e2 := congrArg (fun l => l[u.length]?) e
          simp only [List.getElem?_append_right (Nat.le_refl _), Nat.sub_self, List.getElem?_cons_zero] at e2
          rw [List.getElem?_append_left hlt] at e2
          exact List.mem_of_getElem? e2.symm
        exact h (l2body_inside l c hm)
      have e2 := congrArg (List.take a.length) e
      rw [List.take_left, List.take_append_of_le_length hl] at e2
      exact ⟨a, u.drop a.length, by rw [← e2, List.length_take, Nat.min_eq_left hl, List.take_append_drop], l⟩
    · rintro ⟨a, b, rfl, l⟩
      exact ⟨a, b ++ c :: v, List.append_assoc a b _, l⟩
  cases h1 : L2.isLevel2 (u ++ c :: v) <;> cases h2 : L2.isLevel2 u <;> simp_all

theorem runeError_foreign : runeError ∉ notationChars := by decide

end EDTF
