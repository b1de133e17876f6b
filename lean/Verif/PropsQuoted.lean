/- C110: the errors for texts that are no numbers show what the text was, and can be printed. -/
import Verif.PropsTimestampBytes
namespace EDTF
open Spec

namespace Spec

/-- A character that can be printed. -/
def Shown (c : Char) : Prop := 32 ≤ c.toNat ∧ c.toNat ≠ 127 ∧ ¬ Unprintable c

end Spec

/-! ### Reading a quoted text back -/

def hexOf (c : Char) : Nat := if c.toNat < 58 then c.toNat - 48 else c.toNat - 87

def hexNumber (s : Str) : Nat := s.foldl (fun n c => 16 * n + hexOf c) 0

/-- What a letter after a backslash stands for. -/
def named (l : Char) : Bytes :=
  if l = 'a' then [7] else if l = 'b' then [8] else if l = 't' then [9] else if l = 'n' then [10] else if l = 'v' then [11]
  else if l = 'f' then [12] else if l = 'r' then [13] else encode [l]

def readOne : Str → Option (Bytes × Str)
  | [] => none
  | c :: r =>
    if c ≠ '\\' then some (encode [c], r) else
    match r with
    | [] => none
    | l :: r =>
      if l = 'x' then some ([(hexNumber (r.take 2)).toUInt8], r.drop 2)
      else if l = 'u' then some (encode [.ofNat (hexNumber (r.take 4))], r.drop 4)
      else if l = 'U' then some (encode [.ofNat (hexNumber (r.take 8))], r.drop 8)
      else some (named l, r)

theorem hexOf_digit (n : Nat) : hexOf ((c! "0123456789abcdef").getD (n % 16) '?') = n % 16 := by
  have : ∀ n : Fin 16, hexOf ((c! "0123456789abcdef").getD n.val '?') = n.val := by decide
  exact this ⟨n % 16, by omega⟩

theorem hexNumber_two {n : Nat} (h : n < 256) : hexNumber (hex2 n) = n := by
  have : ∀ n : Fin 256, hexNumber (hex2 n.val) = n.val := by decide +kernel
  exact this ⟨n, h⟩

theorem hexNumber_four {n : Nat} (h : n < 2 ^ 16) : hexNumber (hexDigits 4 n) = n := by
  have e : hexDigits 4 n = [(c! "0123456789abcdef").getD (n / 4096 % 16) '?', (c! "0123456789abcdef").getD (n / 256 % 16) '?',
    (c! "0123456789abcdef").getD (n / 16 % 16) '?', (c! "0123456789abcdef").getD (n / 1 % 16) '?'] := rfl
  rw [e, hexNumber]
  simp only [List.foldl_cons, List.foldl_nil, hexOf_digit]
  omega

theorem hexNumber_eight {n : Nat} (h : n < 0x110000) : hexNumber (hexDigits 8 n) = n := by
  have e : hexDigits 8 n = [(c! "0123456789abcdef").getD (n / 268435456 % 16) '?', (c! "0123456789abcdef").getD (n / 16777216 % 16) '?',
    (c! "0123456789abcdef").getD (n / 1048576 % 16) '?', (c! "0123456789abcdef").getD (n / 65536 % 16) '?',
    (c! "0123456789abcdef").getD (n / 4096 % 16) '?', (c! "0123456789abcdef").getD (n / 256 % 16) '?',
    (c! "0123456789abcdef").getD (n / 16 % 16) '?', (c! "0123456789abcdef").getD (n / 1 % 16) '?'] := rfl
  rw [e, hexNumber]
  simp only [List.foldl_cons, List.foldl_nil, hexOf_digit]
  omega

theorem hexDigits_length (k n : Nat) : (hexDigits k n).length = k := by simp [hexDigits]

theorem encode_control {c : Char} (h : c.toNat < 128) : encode [c] = [c.toNat.toUInt8] := by
  have : ∀ n : Fin 128, encode [Char.ofNat n.val] = [n.val.toUInt8] := by decide +kernel
  have := this ⟨c.toNat, h⟩
  rwa [← char_eq_ofNat] at this

theorem readOne_char {c : Char} {u : Str} (h : Escaped c u) (r : Str) : readOne (u ++ r) = some (encode [c], r) ∧ (u ++ r).head? ≠ some '"' := by
  cases h with
  | mark c h => rcases h with rfl | rfl <;> exact ⟨rfl, nofun⟩
  | named n l h =>
    simp only [List.mem_cons, List.not_mem_nil, or_false, Prod.mk.injEq] at h
    rcases h with ⟨rfl, rfl⟩ | ⟨rfl, rfl⟩ | ⟨rfl, rfl⟩ | ⟨rfl, rfl⟩ | ⟨rfl, rfl⟩ | ⟨rfl, rfl⟩ | ⟨rfl, rfl⟩ <;> exact ⟨rfl, nofun⟩
  | control c h =>
    refine ⟨?_, nofun⟩
    have e : readOne (c! "\\x" ++ hex2 c.toNat ++ r) = some ([(hexNumber (hex2 c.toNat)).toUInt8], r) := rfl
    rw [e, hexNumber_two (by omega), encode_control (by omega)]
  | plain c h1 h2 h3 h4 h5 =>
    refine ⟨?_, ?_⟩
    · show readOne (c :: r) = _
      unfold readOne
      simp only
      rw [if_pos h2]
    · intro k
      injection k with k
      exact h1 k
  | short c h hc =>
    refine ⟨?_, nofun⟩
    have e : readOne (c! "\\u" ++ hexDigits 4 c.toNat ++ r) =
      some (encode [.ofNat (hexNumber ((hexDigits 4 c.toNat ++ r).take 4))], (hexDigits 4 c.toNat ++ r).drop 4) := rfl
    rw [e, List.take_left' (hexDigits_length _ _), List.drop_left' (hexDigits_length _ _), hexNumber_four hc, ← char_eq_ofNat]
  | long c h hc =>
    refine ⟨?_, nofun⟩
    have e : readOne (c! "\\U" ++ hexDigits 8 c.toNat ++ r) =
      some (encode [.ofNat (hexNumber ((hexDigits 8 c.toNat ++ r).take 8))], (hexDigits 8 c.toNat ++ r).drop 8) := rfl
    rw [e, List.take_left' (hexDigits_length _ _), List.drop_left' (hexDigits_length _ _), hexNumber_eight (char_lt c), ← char_eq_ofNat]

theorem readOne_byte (x : UInt8) (r : Str) : readOne (c! "\\x" ++ hex2 x.toNat ++ r) = some ([x], r) := by
  have e : readOne (c! "\\x" ++ hex2 x.toNat ++ r) = some ([(hexNumber (hex2 x.toNat)).toUInt8], r) := rfl
  rw [e, hexNumber_two x.toNat_lt]
  have : x.toNat.toUInt8 = x := UInt8.ofNat_toNat
  rw [this]

/-- Either nothing is left, or the first piece is read. -/
theorem escaped_read {b : Bytes} {q : Str} (h : EscapedBytes b q) : (b = [] ∧ q = []) ∨
    ∃ p b' q', b = p ++ b' ∧ EscapedBytes b' q' ∧ q'.length < q.length ∧ ∀ r, readOne (q ++ r) = some (p, q' ++ r) ∧ (q ++ r).head? ≠ some '"' := by
  cases h with
  | nil => exact .inl ⟨rfl, rfl⟩
  | char c p b u v hp hu h =>
    refine .inr ⟨p, b, v, rfl, h, ?_, fun r => ?_⟩
    · have : u ≠ [] := by
        rintro rfl
        have := (readOne_char hu []).1
        cases this
      have := List.length_pos_iff.2 this
      rw [List.length_append]
      omega
    · rw [List.append_assoc, isUtf8_iff.1 hp]
      exact readOne_char hu (v ++ r)
  | byte x b v hx h =>
    refine .inr ⟨[x], b, v, rfl, h, ?_, fun r => ?_⟩
    · simp only [List.length_append, List.length_cons]; omega
    · rw [List.append_assoc]
      exact ⟨readOne_byte x (v ++ r), nofun⟩

/-- What is quoted can be read back, up to the quotation mark at its end. -/
theorem escaped_unique : ∀ (n : Nat) {a b : Bytes} {q q' r r' : Str}, q.length < n → EscapedBytes a q → EscapedBytes b q' →
    q ++ '"' :: r = q' ++ '"' :: r' → a = b ∧ r = r' := by
  intro n
  induction n with
  | zero => intro a b q q' r r' h; omega
  | succ n ih =>
    intro a b q q' r r' hn ha hb e
    rcases escaped_read ha with ⟨rfl, rfl⟩ | ⟨p, a', w, rfl, ha', hl, h1⟩
    · rcases escaped_read hb with ⟨rfl, rfl⟩ | ⟨p', b', w', rfl, hb', hl', h2⟩
      · injection e with _ e
        exact ⟨rfl, e⟩
      · exact absurd (by rw [← e]; rfl) (h2 ('"' :: r')).2
    · rcases escaped_read hb with ⟨rfl, rfl⟩ | ⟨p', b', w', rfl, hb', hl', h2⟩
      · exact absurd (by rw [e]; rfl) (h1 ('"' :: r)).2
      · have k := (h1 ('"' :: r)).1
        rw [e, (h2 ('"' :: r')).1] at k
        injection k with k
        injection k with k1 k2
        obtain ⟨h3, h4⟩ := ih (by omega) ha' hb' k2.symm
        exact ⟨by rw [k1, h3], h4⟩

/-! ### What can be printed -/

theorem shown_low {c : Char} (h1 : 32 ≤ c.toNat) (h2 : c.toNat < 127) : Shown c :=
  ⟨h1, by omega, fun k => by have := unprintable_ge k; omega⟩

theorem shown_list {s : Str} (h : s.all (fun c => decide (32 ≤ c.toNat) && decide (c.toNat < 127)) = true) : ∀ c ∈ s, Shown c := by
  intro c hc
  have := List.all_eq_true.1 h c hc
  simp only [Bool.and_eq_true, decide_eq_true_eq] at this
  exact shown_low this.1 this.2

theorem shown_append {s t : Str} (hs : ∀ c ∈ s, Shown c) (ht : ∀ c ∈ t, Shown c) : ∀ c ∈ s ++ t, Shown c := by
  intro c hc
  rcases List.mem_append.1 hc with h | h
  · exact hs c h
  · exact ht c h

theorem shown_hex2 (n : Nat) (h : n < 256) : ∀ c ∈ hex2 n, Shown c := by
  have : ∀ n : Fin 256, (hex2 n.val).all (fun c => decide (32 ≤ c.toNat) && decide (c.toNat < 127)) = true := by decide +kernel
  exact shown_list (this ⟨n, h⟩)

theorem shown_hexDigits (k n : Nat) : ∀ c ∈ hexDigits k n, Shown c := by
  intro c hc
  unfold hexDigits at hc
  obtain ⟨i, -, rfl⟩ := List.mem_map.1 hc
  have : ∀ m : Fin 16, 32 ≤ ((c! "0123456789abcdef").getD m.val '?').toNat ∧ ((c! "0123456789abcdef").getD m.val '?').toNat < 127 := by decide
  have := this ⟨n / 16 ^ i % 16, by omega⟩
  exact shown_low this.1 this.2

theorem shown_escaped {c : Char} {u : Str} (h : Escaped c u) : ∀ d ∈ u, Shown d := by
  cases h with
  | mark c h => rcases h with rfl | rfl <;> exact shown_list (by decide)
  | named n l h =>
    simp only [List.mem_cons, List.not_mem_nil, or_false, Prod.mk.injEq] at h
    rcases h with ⟨rfl, rfl⟩ | ⟨rfl, rfl⟩ | ⟨rfl, rfl⟩ | ⟨rfl, rfl⟩ | ⟨rfl, rfl⟩ | ⟨rfl, rfl⟩ | ⟨rfl, rfl⟩ <;> exact shown_list (by decide)
  | control c h => exact shown_append (shown_list (by decide)) (shown_hex2 _ (by omega))
  | plain c h1 h2 h3 h4 h5 =>
    intro d hd
    rw [List.mem_singleton.1 hd]
    exact ⟨h3, h4, h5⟩
  | short c h hc => exact shown_append (shown_list (by decide)) (shown_hexDigits _ _)
  | long c h hc => exact shown_append (shown_list (by decide)) (shown_hexDigits _ _)

theorem shown_bytes {b : Bytes} {q : Str} (h : EscapedBytes b q) : ∀ d ∈ q, Shown d := by
  induction h with
  | nil => nofun
  | char c p b u v hp hu h ih => exact shown_append (shown_escaped hu) ih
  | byte x b v hx h ih => exact shown_append (shown_append (shown_list (by decide)) (shown_hex2 _ x.toNat_lt)) ih

theorem shown_reason {b : Bytes} {r : Str} (h : NoIntBytesReason b r) : ∀ d ∈ r, Shown d := by
  cases h <;> exact shown_list (by decide)

/-! ### C110 -/

/-- The same for both functions of strconv. -/
theorem said_unique {pre : Str} {a b : Bytes} {t : Bytes}
    (ha : ∃ q r, EscapedBytes a q ∧ NoIntBytesReason a r ∧ IsUtf8 t (pre ++ c! "\"" ++ q ++ c! "\": " ++ r))
    (hb : ∃ q r, EscapedBytes b q ∧ NoIntBytesReason b r ∧ IsUtf8 t (pre ++ c! "\"" ++ q ++ c! "\": " ++ r)) : a = b := by
  obtain ⟨q, r, h1, -, h2⟩ := ha
  obtain ⟨q', r', k1, -, k2⟩ := hb
  have e := (isUtf8_iff.1 h2).symm.trans (isUtf8_iff.1 k2)
  have e := congrArg runes e
  rw [runes_encode, runes_encode] at e
  simp only [List.append_assoc] at e
  have e := List.append_cancel_left (List.append_cancel_left e)
  exact (escaped_unique (q.length + 1) (by omega) h1 k1 e).1

/-- **C110**: two texts that are no numbers and of which the same is said are the same. -/
theorem C110_number {a b t : Bytes} (ha : atoiBytes a = .fault t) (hb : atoiBytes b = .fault t) : a = b :=
  said_unique (pre := c! "strconv.Atoi: parsing ") (atoi_no.1 ha) (atoi_no.1 hb)

/-- **C110**: what is said of a text that is no number is UTF-8 and can be printed, whatever the text is. -/
theorem C110_printed {a t : Bytes} (h : atoiBytes a = .fault t) : ∃ s, IsUtf8 t s ∧ ∀ c ∈ s, Shown c := by
  obtain ⟨q, r, h1, h2, h3⟩ := atoi_no.1 h
  exact ⟨_, h3, shown_append (shown_append (shown_append (shown_list (by decide)) (shown_bytes h1)) (shown_list (by decide))) (shown_reason h2)⟩

/-- **C110**: the error for a year that is no number shows the year. -/
theorem C110_year {y m d y' m' d' t : Bytes} (hy : y ≠ []) (hm : m = [] → d = []) (hn : ∀ v, ¬ IntBytes y v)
    (hy' : y' ≠ []) (hm' : m' = [] → d' = []) (hn' : ∀ v, ¬ IntBytes y' v)
    (h : ymdFromStringsBytes y m d = .fault t) (h' : ymdFromStringsBytes y' m' d' = .fault t) : y = y' := by
  have key : ∀ {y m d : Bytes}, y ≠ [] → (m = [] → d = []) → (∀ v, ¬ IntBytes y v) → ymdFromStringsBytes y m d = .fault t → atoiBytes y = .fault t := by
    intro y m d hy hm hn h
    unfold ymdFromStringsBytes at h
    rw [if_neg hy, if_neg fun k => k.2 (hm k.1)] at h
    rcases atoi_cases y with ⟨v, hv, -⟩ | ⟨t', -, e⟩
    · exact absurd hv (hn v)
    · rw [e] at h
      rw [e]
      injection h with h
      rw [h]
  exact C110_number (key hy hm hn h) (key hy' hm' hn' h')

/-- **C110**: the error of a timestamp shows what stood between the quotes, and can be printed. -/
theorem C110_timestamp {ts ts' : Int} {a b t : Bytes} (ha : (unmarshalTimestampBytes ts a).2 = some t) (hb : (unmarshalTimestampBytes ts' b).2 = some t) :
    (∃ m, InQuotes a m ∧ InQuotes b m) ∧ ∃ s, IsUtf8 t s ∧ ∀ c ∈ s, Shown c := by
  have key : ∀ {ts : Int} {b : Bytes}, (unmarshalTimestampBytes ts b).2 = some t →
      ∃ m, InQuotes b m ∧ ∃ q r, EscapedBytes m q ∧ NoIntBytesReason m r ∧ IsUtf8 t (c! "strconv.ParseInt: parsing " ++ c! "\"" ++ q ++ c! "\": " ++ r) := by
    intro ts b h
    have k := (C109_unmarshal ts b _).1 rfl
    generalize unmarshalTimestampBytes ts b = x at *
    cases k with
    | ok m hm v hv => cases h
    | error m hm q r hq hr t' ht =>
      injection h with h
      subst h
      exact ⟨m, hm, q, r, hq, hr, ht⟩
  obtain ⟨m, hm, k⟩ := key ha
  obtain ⟨m', hm', k'⟩ := key hb
  have := said_unique k k'
  subst this
  obtain ⟨q, r, h1, h2, h3⟩ := k
  exact ⟨⟨m, hm, hm'⟩, _, h3, shown_append (shown_append (shown_append (shown_list (by decide)) (shown_bytes h1)) (shown_list (by decide))) (shown_reason h2)⟩

example : atoiBytes (encode (c! "1\u200B2") ++ [0xFF]) = .fault (ascii (c! "strconv.Atoi: parsing \"1\\u200b2\\xff\": invalid syntax")) := by decide +kernel
example : atoiBytes (encode [.ofNat 0xE0001]) = .fault (ascii (c! "strconv.Atoi: parsing \"\\U000e0001\": invalid syntax")) := by decide +kernel
example : atoiBytes (encode (c! "é\u0085")) = .fault (encode (c! "strconv.Atoi: parsing \"é\\u0085\": invalid syntax")) := by decide +kernel
/-- A backslash in the text is doubled, so that it is not taken for what stands for a byte. -/
example : atoiBytes (encode (c! "\\xff")) ≠ atoiBytes [0xFF] := by decide +kernel
example : ∃ s, IsUtf8 (ascii (c! "strconv.Atoi: parsing \"\\xff\\u00a0\": invalid syntax")) s ∧ ∀ c ∈ s, Shown c :=
  C110_printed (a := [0xFF, 0xC2, 0xA0]) (by decide +kernel)
example : ymdFromStringsBytes [0xFF] [] [] = .fault (ascii (c! "strconv.Atoi: parsing \"\\xff\": invalid syntax")) := by decide +kernel
example : ∃ m, InQuotes (ascii (c! "\"x")) m ∧ InQuotes (ascii (c! "x\"\"")) m :=
  (C110_timestamp (ts := 1) (ts' := 2) (t := ascii (c! "strconv.ParseInt: parsing \"x\": invalid syntax")) (by decide +kernel) (by decide +kernel)).1

end EDTF
