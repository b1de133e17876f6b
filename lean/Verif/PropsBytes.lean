/- C102: strings of bytes. -/
import Verif.LemmasBytes
import Verif.PropsStderr
namespace EDTF
open Spec

/-- **C102**: every string of bytes is the UTF-8 text of one string of characters, or breaks off
after one; the model's way of writing UTF-8 is that of RFC 3629. -/
theorem C102_bytes (b : Bytes) : ((∃ s, IsUtf8 b s) ∨ ∃ u, BrokenAfter b u) ∧ (∀ s u, IsUtf8 b s → ¬ BrokenAfter b u) ∧
    (∀ s, IsUtf8 b s ↔ b = encode s) ∧ (∀ s t, IsUtf8 b s → IsUtf8 b t → s = t) ∧ ∀ u v, BrokenAfter b u → BrokenAfter b v → u = v := by
  refine ⟨?_, fun s u h k => broken_not k s (isUtf8_iff.1 h), fun s => isUtf8_iff, fun s t h k => ?_, fun u v => broken_unique⟩
  · rcases utf8_or_broken b.length b (Nat.le_refl _) with ⟨s, h⟩ | h
    · exact .inl ⟨s, isUtf8_iff.2 h⟩
    · exact .inr h
  · rw [isUtf8_iff] at h k
    exact encode_inj (h.symm.trans k)

/-- A byte that begins no character after "1985". -/
theorem broken_1985 : BrokenAfter [0x31, 0x39, 0x38, 0x35, 0xFF] (c! "1985") := by
  obtain ⟨u, h⟩ := (not_utf8 (b := [0x31, 0x39, 0x38, 0x35, 0xFF])).1 (by
    rintro ⟨s, h⟩
    rw [isUtf8_iff] at h
    have e := congrArg runes h
    rw [runes_encode, show runes [0x31, 0x39, 0x38, 0x35, 0xFF] = c! "1985�" by decide +kernel] at e
    rw [← e] at h
    exact absurd h (by decide))
  obtain ⟨v, hv⟩ := broken_runes h
  rw [show runes [0x31, 0x39, 0x38, 0x35, 0xFF] = c! "1985" ++ runeError :: [] by decide +kernel] at hv
  have : u = c! "1985" := by
    clear h
    match u, hv with
    | [], hv => exact absurd (List.cons.inj hv).1 (by decide)
    | [_], hv => injection hv with _ hv; exact absurd (List.cons.inj hv).1 (by decide)
    | [_, _], hv => injection hv with _ hv; injection hv with _ hv; exact absurd (List.cons.inj hv).1 (by decide)
    | [_, _, _], hv => injection hv with _ hv; injection hv with _ hv; injection hv with _ hv; exact absurd (List.cons.inj hv).1 (by decide)
    | [a, b, c, d], hv =>
      injection hv with h1 hv; injection hv with h2 hv; injection hv with h3 hv; injection hv with h4 hv
      subst h1; subst h2; subst h3; subst h4; rfl
    | _ :: _ :: _ :: _ :: _ :: u, hv =>
      exfalso
      have := congrArg List.length hv
      simp at this
  rw [← this]; exact h

example : (∃ s, IsUtf8 [0xC3, 0xA9] s) ∧ BrokenAfter [0x31, 0x39, 0x38, 0x35, 0xFF] (c! "1985") :=
  ⟨⟨c! "é", by unfold IsUtf8; decide⟩, broken_1985⟩

/-! ### The parser -/

theorem parse_utf8 (s : Str) : parseBytesM (encode s) = (parseStringM s).bytes := by
  have hi : ∀ l, invalidBytes l (encode s) = encode (quotedWith (c! "Invalid EDTF string") s l) := by
    intro l; unfold invalidBytes quotedWith; rw [← encode_append, ← encode_append]; simp only [List.append_assoc]; rfl
  have hr : ∀ l, unrecognizedBytes l (encode s) = encode (quotedWith (c! "Unrecognized EDTF string") s l) := by
    intro l; unfold unrecognizedBytes quotedWith; rw [← encode_append, ← encode_append]; simp only [List.append_assoc]; rfl
  unfold parseBytesM parseStringM L2.parseBytesM L2.parseStringM
  simp only [runes_encode, encode_eq, hi, hr, apply_ite Told.bytes]
  rfl

theorem match_utf8 (s : Str) : matchesBytes (encode s) = (Told.lift (matchesStr s)).bytes := by
  have hi : ∀ l, invalidBytes l (encode s) = encode (quotedWith (c! "Invalid EDTF string") s l) := by
    intro l; unfold invalidBytes quotedWith; rw [← encode_append, ← encode_append]; simp only [List.append_assoc]; rfl
  have hr : ∀ l, unrecognizedBytes l (encode s) = encode (quotedWith (c! "Unrecognized EDTF string") s l) := by
    intro l; unfold unrecognizedBytes quotedWith; rw [← encode_append, ← encode_append]; simp only [List.append_assoc]; rfl
  unfold matchesBytes matchesStr
  simp only [runes_encode, hi, hr]
  split
  · unfold L0.matchesStr
    repeat' split
    all_goals rfl
  split
  · unfold L1.matchesStr
    repeat' split
    all_goals rfl
  split
  · unfold L2.matchesStr
    repeat' split
    all_goals rfl
  rfl

theorem foreign_bytes {b : Bytes} {u : Str} (h : BrokenAfter b u) :
    (Level2Start u → parseBytesM b = .fault (invalidBytes (c! "Invalid or unsupported Level 2 string") b) ∧
      matchesBytes b = .fault (invalidBytes (c! "Invalid or unsupported Level 2 string") b)) ∧
    (¬ Level2Start u → parseBytesM b = .fault (unrecognizedBytes (c! "Invalid or unsupported EDTF string") b) ∧
      matchesBytes b = .fault (unrecognizedBytes (c! "Invalid or unsupported EDTF string") b)) := by
  obtain ⟨v, hv⟩ := broken_runes h
  have hm : runeError ∈ runes b := by rw [hv]; simp
  obtain ⟨h0, h1, e1, e2, e3, e4, e5, e6, e7, e8⟩ := foreign_tests hm runeError_foreign
  have h2 : L2.isLevel2 (runes b) = L2.isLevel2 u := by rw [hv, foreign_level2 runeError_foreign]
  have ho := broken_not h OPEN
  have hu := broken_not h UNKNOWN
  have m2 := (level2_none hm runeError_foreign).2
  unfold parseBytesM matchesBytes L2.parseBytesM
  simp only [h0, h1, h2, e1, e2, e3, e4, e5, e6, e7, e8, m2]
  constructor
  · intro k
    rw [level2_start.2 k]
    exact ⟨rfl, rfl⟩
  · intro k
    have : L2.isLevel2 u = false := by
      cases hh : L2.isLevel2 u with
      | false => rfl
      | true => exact absurd (level2_start.1 hh) k
    rw [this]
    simp only [Bool.false_eq_true, if_false, if_neg ho, if_neg hu, and_self]

theorem invalid_ascii (b : Bytes) : invalidBytes (c! "Invalid or unsupported Level 2 string") b =
    ascii (c! "Invalid EDTF string '") ++ b ++ ascii (c! "' (Invalid or unsupported Level 2 string)") := by
  unfold invalidBytes
  rw [encode_ascii (s := c! "Invalid EDTF string '") (by decide), encode_ascii (by decide)]
  rfl

theorem unrecognized_ascii (b : Bytes) : unrecognizedBytes (c! "Invalid or unsupported EDTF string") b =
    ascii (c! "Unrecognized EDTF string '") ++ b ++ ascii (c! "' (Invalid or unsupported EDTF string)") := by
  unfold unrecognizedBytes
  rw [encode_ascii (s := c! "Unrecognized EDTF string '") (by decide), encode_ascii (by decide)]
  rfl

/-- What is said of broken bytes is determined. -/
theorem brokenText_of {b : Bytes} {u : Str} (h : BrokenAfter b u) :
    ∃ t, BrokenText b t ∧ parseBytesM b = .fault t ∧ matchesBytes b = .fault t := by
  obtain ⟨h1, h2⟩ := foreign_bytes h
  by_cases k : Level2Start u
  · obtain ⟨p, m⟩ := h1 k
    exact ⟨_, .invalid h k, by rw [p, invalid_ascii], by rw [m, invalid_ascii]⟩
  · obtain ⟨p, m⟩ := h2 k
    exact ⟨_, .unrecognized h k, by rw [p, unrecognized_ascii], by rw [m, unrecognized_ascii]⟩

theorem brokenText_unique {b t t' : Bytes} (h : BrokenText b t) (h' : BrokenText b t') : t = t' := by
  cases h with
  | invalid h k => cases h' with
    | invalid => rfl
    | unrecognized h' k' => rw [broken_unique h h'] at k; exact absurd k k'
  | unrecognized h k => cases h' with
    | unrecognized => rfl
    | invalid h' k' => rw [broken_unique h h'] at k; exact absurd k' k

theorem brokenText_broken {b t : Bytes} (h : BrokenText b t) : ∃ u, BrokenAfter b u := by
  cases h with
  | invalid h _ => exact ⟨_, h⟩
  | unrecognized h _ => exact ⟨_, h⟩

theorem broken_said {b t : Bytes} (h : BrokenText b t) : parseBytesM b = .fault t ∧ matchesBytes b = .fault t := by
  obtain ⟨u, hu⟩ := brokenText_broken h
  obtain ⟨t', h', p, m⟩ := brokenText_of hu
  rw [brokenText_unique h h']
  exact ⟨p, m⟩

/-- **C102**: on UTF-8 the parser and `Matches` say, byte for byte, what they say of the characters. -/
theorem C102_parse {b : Bytes} {s : Str} (h : IsUtf8 b s) :
    parseBytesM b = (parseStringM s).bytes ∧ matchesBytes b = (Told.lift (matchesStr s)).bytes := by
  rw [isUtf8_iff.1 h]
  exact ⟨parse_utf8 s, match_utf8 s⟩

example : parseBytesM [0xC3, 0xA9] = .fault (encode (c! "Unrecognized EDTF string 'é' (Invalid or unsupported EDTF string)")) := by
  rw [(C102_parse (s := c! "é") (by unfold IsUtf8; decide)).1]; decide +kernel

/-- **C102**: of any other bytes they say, byte for byte, what `BrokenText` says, and the program does not end. -/
theorem C102_broken (b t : Bytes) (h : ¬ ∃ s, IsUtf8 b s) :
    (parseBytesM b = .fault t ↔ BrokenText b t) ∧ (matchesBytes b = .fault t ↔ BrokenText b t) ∧ ∃ t, parseBytesM b = .fault t ∧ matchesBytes b = .fault t := by
  obtain ⟨u, hu⟩ := not_utf8.1 h
  obtain ⟨t', h', p, m⟩ := brokenText_of hu
  rw [p, m]
  refine ⟨⟨?_, ?_⟩, ⟨?_, ?_⟩, t', rfl, rfl⟩
  · intro e; injection e with e; rw [← e]; exact h'
  · intro k; rw [brokenText_unique h' k]
  · intro e; injection e with e; rw [← e]; exact h'
  · intro k; rw [brokenText_unique h' k]

example : parseBytesM [0x31, 0x39, 0x38, 0x35, 0xFF] =
    .fault (ascii (c! "Invalid EDTF string '1985") ++ [0xFF] ++ ascii (c! "' (Invalid or unsupported Level 2 string)")) :=
  (C102_broken _ _ (not_utf8.2 ⟨_, broken_1985⟩)).1.2 (.invalid broken_1985 (level2_start.1 (by decide +kernel)))

/-- **C102**: where a test of the parser passes, the bytes are UTF-8, so that the parser for the
feature, which the model gives the characters, is given the same. -/
theorem C102_matched {b : Bytes} (h : L0.isLevel0 (runes b) = true ∨ L1.isLevel1 (runes b) = true ∨ L2.isExponentialYear (runes b) = true ∨
    L2.isSignificantDigits (runes b) = true ∨ L2.isSubYearGrouping (runes b) = true ∨ L2.isSetRepresentation (runes b) = true ∨
    L2.isGroupQualification (runes b) = true ∨ L2.isIndividualQualification (runes b) = true ∨ L2.isUnspecifiedDigit (runes b) = true ∨
    L2.isInterval (runes b) = true) : IsUtf8 b (runes b) := by
  rcases utf8_or_broken b.length b (Nat.le_refl _) with ⟨s, rfl⟩ | ⟨u, hu⟩
  · rw [runes_encode]; exact encode_isUtf8 s
  · exfalso
    obtain ⟨v, hv⟩ := broken_runes hu
    have hm : runeError ∈ runes b := by rw [hv]; simp
    obtain ⟨h0, h1, e1, e2, e3, e4, e5, e6, e7, e8⟩ := foreign_tests hm runeError_foreign
    simp only [h0, h1, e1, e2, e3, e4, e5, e6, e7, e8, Bool.false_eq_true, or_self] at h

example : IsUtf8 [0x31, 0x39, 0x38, 0x35] (c! "1985") := C102_matched (b := [0x31, 0x39, 0x38, 0x35]) (.inl (by decide +kernel))

/-- **C102**: exactly these bytes end the program. -/
theorem C102_panic (b : Bytes) : parseBytesM b = .panic ↔ ∃ s, IsUtf8 b s ∧ Panics s := by
  constructor
  · intro h
    rcases utf8_or_broken b.length b (Nat.le_refl _) with ⟨s, rfl⟩ | ⟨u, hu⟩
    · refine ⟨s, encode_isUtf8 s, ?_⟩
      rw [parse_utf8] at h
      rw [← C63_panic, ← C79_forget]
      cases k : parseStringM s with
      | panic => rfl
      | ok d => rw [k] at h; cases h
      | fault f => rw [k] at h; cases h
    · obtain ⟨t, _, p, _⟩ := brokenText_of hu
      rw [p] at h; cases h
  · rintro ⟨s, h, k⟩
    rw [isUtf8_iff.1 h, parse_utf8]
    rw [← C63_panic, ← C79_forget] at k
    cases e : parseStringM s with
    | panic => rfl
    | ok d => rw [e] at k; cases k
    | fault f => rw [e] at k; cases k

example : parseBytesM (encode (c! "1950S5")) = .panic ∧ parseBytesM (encode (c! "1950S5") ++ [0xFF]) ≠ .panic := by
  constructor <;> decide +kernel

/-! ### Comparisons and ranges -/

theorem bytes_after {α : Type} (b : Str) (r : Told α) : (r.bytes).after (encode b) = (r.format b).bytes := by
  cases r with
  | ok => rfl
  | panic => rfl
  | fault f => show Said.fault _ = Said.fault _; rw [← encode_append]

theorem bytes_after_wrap {α : Type} (b : Str) (r : Told α) : (r.bytes).after (encode b) = (r.wrap b).bytes := by
  cases r with
  | ok => rfl
  | panic => rfl
  | fault f => show Said.fault _ = Said.fault _; rw [← encode_append]

theorem bytes_bind {α β : Type} (r : Told α) (f : α → Told β) : (r.bytes >>= fun a => (f a).bytes) = (r >>= f).bytes := by
  cases r <;> rfl

theorem bytes_bind' {α β : Type} {r : Told α} {f : α → Told β} {g : α → Said β} (h : ∀ a, g a = (f a).bytes) : (r.bytes >>= g) = (r >>= f).bytes := by
  rw [← bytes_bind]; congr; funext a; exact h a

theorem failed_encode (s : Str) : encode (c! "Failed to parse '") ++ encode s ++ encode (c! "', ") = encode (c! "Failed to parse '" ++ s ++ c! "', ") := by
  simp only [encode_append]

theorem after_utf8 (s t : Str) : isAfterBytes (encode s) (encode t) = (isAfterM s t).bytes := by
  unfold isAfterBytes isAfterM
  simp only [parse_utf8, failed_encode, bytes_after, bytes_bind]

theorem before_utf8 (s t : Str) : isBeforeBytes (encode s) (encode t) = (isBeforeM s t).bytes := by
  unfold isBeforeBytes isBeforeM
  simp only [parse_utf8, failed_encode, bytes_after, bytes_bind]

theorem between_utf8 (s i c : Str) : isBetweenBytes (encode s) (encode i) (encode c) = (isBetweenM s i c).bytes := by
  unfold isBetweenBytes isBetweenM
  rw [before_utf8, bytes_after_wrap, after_utf8, bytes_after_wrap]
  cases (isBeforeM s i).wrap (c! "Failed to determine if date is before inception date, ") with
  | fault => rfl
  | panic => rfl
  | ok a =>
    cases a with
    | true => rfl
    | false =>
      show (if encode c ≠ encode OPEN then _ else _) = Told.bytes (if c ≠ OPEN then _ else _)
      by_cases h : c = OPEN
      · subst h; rfl
      · rw [if_pos (fun e => h (encode_inj e)), if_pos h]
        cases (isAfterM s c).wrap (c! "Failed to determine if date is after cessation date, ") with
        | fault => rfl
        | panic => rfl
        | ok a => cases a <;> rfl

theorem encode_beq (s t : Str) : (encode s == encode t) = (s == t) := by
  by_cases h : s = t
  · subst h; simp
  · rw [beq_eq_false_iff_ne.2 h, beq_eq_false_iff_ne.2 (fun e => h (encode_inj e))]

theorem ranges_utf8 (s : Str) : Unix.deriveRangesBytes (encode s) = (Unix.deriveRangesM s).bytes := by
  have hv : Unix.isValidBytes (encode s) = Unix.isValid s := by
    unfold Unix.isValidBytes Unix.isValid isOpenStr isUnknownStr isUnspecifiedStr
    simp only [encode_beq]
  unfold Unix.deriveRangesBytes Unix.deriveRangesM
  rw [hv, parse_utf8, failed_encode, bytes_after_wrap]
  cases Unix.isValid s with
  | false => rfl
  | true =>
    simp only [Bool.not_true, Bool.false_eq_true, if_false]
    refine bytes_bind' fun d => bytes_bind' fun st => bytes_bind' fun en => ?_
    cases st.lower <;> cases st.upper <;> cases en.lower <;> cases en.upper <;> try rfl
    rename_i a b c e
    simp only
    cases a.timestamp <;> cases b.timestamp <;> cases c.timestamp <;> cases e.timestamp <;> rfl

theorem replace_utf8 (s : Str) : replaceDeprecatedBytes (encode s) = (match replaceDeprecatedM s with
    | .ok t => .ok (encode t) | .fault f => .fault (encode f.text) | .panic => .panic) := by
  unfold replaceDeprecatedBytes replaceDeprecatedM deprecatedTable
  simp only [List.map_cons, List.map_nil, List.lookup, encode_beq]
  cases s == OPEN_2012 with
  | true => rfl
  | false =>
    cases s == UNSPECIFIED_2012 with
    | true => rfl
    | false =>
      show Said.fault _ = Said.fault _
      simp only [encode_append, List.append_assoc]

/-- **C102**: on UTF-8 the comparisons, the ranges and the replacement of deprecated strings say,
byte for byte, what they say of the characters. -/
theorem C102_compare {a b c : Bytes} {s t u : Str} (h : IsUtf8 a s) (h' : IsUtf8 b t) (h'' : IsUtf8 c u) :
    isAfterBytes a b = (isAfterM s t).bytes ∧ isBeforeBytes a b = (isBeforeM s t).bytes ∧ isBetweenBytes a b c = (isBetweenM s t u).bytes ∧
    Unix.deriveRangesBytes a = (Unix.deriveRangesM s).bytes ∧ replaceDeprecatedBytes a = (match replaceDeprecatedM s with
      | .ok t => .ok (encode t) | .fault f => .fault (encode f.text) | .panic => .panic) := by
  rw [isUtf8_iff.1 h, isUtf8_iff.1 h', isUtf8_iff.1 h'']
  exact ⟨after_utf8 s t, before_utf8 s t, between_utf8 s t u, ranges_utf8 s, replace_utf8 s⟩

example : isBetweenBytes (encode (c! "1990")) (encode (c! "1985")) (encode (c! "..")) = .ok true ∧
    replaceDeprecatedBytes (encode (c! "open")) = .ok [0x2E, 0x2E] := by
  constructor <;> decide +kernel

theorem failed_ascii (b t : Bytes) : encode (c! "Failed to parse '") ++ b ++ encode (c! "', ") ++ t = failedToParse b t := by
  unfold failedToParse
  rw [encode_ascii (s := c! "Failed to parse '") (by decide), encode_ascii (s := c! "', ") (by decide)]

/-- **C102**: the first of two dates is not a text. -/
theorem C102_first {a t : Bytes} (h : BrokenText a t) (b c : Bytes) :
    isAfterBytes a b = .fault (failedToParse a t) ∧ isBeforeBytes a b = .fault (failedToParse a t) ∧
    isBetweenBytes a b c = .fault (ascii (c! "Failed to determine if date is before inception date, ") ++ failedToParse a t) ∧
    Unix.deriveRangesBytes a = .fault (failedToParse a t) ∧
    replaceDeprecatedBytes a = .fault (ascii (c! "Unknown or unsupported EDTF string '") ++ a ++ ascii (c! "' : map[open:.. uuuu:]")) := by
  obtain ⟨p, -⟩ := broken_said h
  obtain ⟨u, hu⟩ := brokenText_broken h
  have hb : isBeforeBytes a b = .fault (failedToParse a t) := by
    unfold isBeforeBytes; rw [p]; show Said.fault _ = _; rw [failed_ascii]
  refine ⟨?_, hb, ?_, ?_, ?_⟩
  · unfold isAfterBytes; rw [p]; show Said.fault _ = _; rw [failed_ascii]
  · unfold isBetweenBytes; rw [hb]; show Said.fault _ = _
    rw [encode_ascii (s := c! "Failed to determine if date is before inception date, ") (by decide)]
  · have hv : Unix.isValidBytes a = true := by
      unfold Unix.isValidBytes
      simp only [beq_eq_false_iff_ne.2 (broken_not hu _), Bool.or_self, Bool.false_eq_true, if_false]
    unfold Unix.deriveRangesBytes
    rw [hv, p]
    show Said.fault _ = _
    rw [failed_ascii]
  · unfold replaceDeprecatedBytes deprecatedTable
    simp only [List.map_cons, List.map_nil, List.lookup, beq_eq_false_iff_ne.2 (broken_not hu _)]
    rw [encode_ascii (s := c! "Unknown or unsupported EDTF string '") (by decide), encode_ascii (by decide)]
    rfl

example : isAfterBytes [0xFF] (encode (c! "x")) = .fault (failedToParse [0xFF] (ascii (c! "Unrecognized EDTF string '") ++ [0xFF] ++
    ascii (c! "' (Invalid or unsupported EDTF string)"))) := by decide +kernel

/-- **C102**: the first date is a text and the second is not: if the first is not accepted either,
that is the error; otherwise the second is. -/
theorem C102_second {b t : Bytes} (h : BrokenText b t) (s : Str) :
    (Accepted s → isAfterBytes (encode s) b = .fault (failedToParse b t) ∧ isBeforeBytes (encode s) b = .fault (failedToParse b t) ∧
      ∀ c, isBetweenBytes (encode s) b c = .fault (ascii (c! "Failed to determine if date is before inception date, ") ++ failedToParse b t)) ∧
    (¬ Accepted s → ∀ x, isAfterBytes (encode s) b = (isAfterM s x).bytes ∧ isBeforeBytes (encode s) b = (isBeforeM s x).bytes ∧
      ∀ c y, isBetweenBytes (encode s) b c = (isBetweenM s x y).bytes) := by
  obtain ⟨p, -⟩ := broken_said h
  constructor
  · intro ha
    obtain ⟨d, hd⟩ := (C54_language s).2 ha
    have hd := told_ok hd
    have hb : isBeforeBytes (encode s) b = .fault (failedToParse b t) := by
      unfold isBeforeBytes; rw [p, parse_utf8, hd]; show Said.fault _ = _; rw [failed_ascii]
    refine ⟨?_, hb, ?_⟩
    · unfold isAfterBytes; rw [p, parse_utf8, hd]; show Said.fault _ = _; rw [failed_ascii]
    · intro c
      unfold isBetweenBytes; rw [hb]; show Said.fault _ = _
      rw [encode_ascii (s := c! "Failed to determine if date is before inception date, ") (by decide)]
  · intro ha x
    have hb : isBeforeBytes (encode s) b = (isBeforeM s x).bytes ∧ ∀ a, isBeforeM s x ≠ .ok a := by
      unfold isBeforeBytes isBeforeM
      rw [parse_utf8]
      cases hp : parseStringM s with
      | ok d => exact absurd ((C54_language s).1 ⟨d, by rw [← C79_forget, hp]; rfl⟩) ha
      | panic => exact ⟨rfl, nofun⟩
      | fault f =>
        refine ⟨?_, nofun⟩
        show Said.fault _ = Said.fault _
        simp only [encode_append]
    refine ⟨?_, hb.1, ?_⟩
    · unfold isAfterBytes isAfterM
      rw [parse_utf8]
      cases hp : parseStringM s with
      | ok d => exact absurd ((C54_language s).1 ⟨d, by rw [← C79_forget, hp]; rfl⟩) ha
      | panic => rfl
      | fault f =>
        show Said.fault _ = Said.fault _
        simp only [encode_append]
    · intro c y
      unfold isBetweenBytes isBetweenM
      rw [hb.1]
      cases hh : isBeforeM s x with
      | ok a => exact absurd hh (hb.2 a)
      | panic => rfl
      | fault f =>
        show Said.fault _ = Said.fault _
        rw [← encode_append]

example : isBeforeBytes (encode (c! "1985")) [0xFF] = .fault (failedToParse [0xFF] (ascii (c! "Unrecognized EDTF string '") ++ [0xFF] ++
    ascii (c! "' (Invalid or unsupported EDTF string)"))) := by decide +kernel

/-- **C102**: only the last of the three is not a text.  That is noticed unless the date is before
the inception. -/
theorem C102_third {c t : Bytes} (h : BrokenText c t) (s i : Str) :
    (isBeforeM s i = .ok true → isBetweenBytes (encode s) (encode i) c = .ok false) ∧
    (isBeforeM s i = .ok false → isBetweenBytes (encode s) (encode i) c =
      .fault (ascii (c! "Failed to determine if date is after cessation date, ") ++ failedToParse c t)) ∧
    ((∀ a, isBeforeM s i ≠ .ok a) → ∀ x, isBetweenBytes (encode s) (encode i) c = (isBetweenM s i x).bytes) := by
  obtain ⟨u, hu⟩ := brokenText_broken h
  unfold isBetweenBytes
  rw [before_utf8]
  refine ⟨fun e => by rw [e]; rfl, fun e => ?_, fun e x => ?_⟩
  · have ha : Accepted s := by
      unfold isBeforeM at e
      cases hp : parseStringM s with
      | ok d => exact (C54_language s).1 ⟨d, by rw [← C79_forget, hp]; rfl⟩
      | panic => rw [hp] at e; cases e
      | fault f => rw [hp] at e; cases e
    rw [e, ((C102_second h s).1 ha).1]
    show (if c ≠ encode OPEN then _ else _) = _
    rw [if_pos (broken_not hu _)]
    show Said.fault _ = _
    rw [encode_ascii (s := c! "Failed to determine if date is after cessation date, ") (by decide)]
  · unfold isBetweenM
    cases hh : isBeforeM s i with
    | ok a => exact absurd hh (e a)
    | panic => rfl
    | fault f =>
      show Said.fault _ = Said.fault _
      rw [← encode_append]

example : isBetweenBytes (encode (c! "1980")) (encode (c! "1985")) [0xFF] = .ok false ∧
    isBetweenBytes (encode (c! "1990")) (encode (c! "1985")) [0xFF] = .fault (ascii (c! "Failed to determine if date is after cessation date, ") ++
      failedToParse [0xFF] (ascii (c! "Unrecognized EDTF string '") ++ [0xFF] ++ ascii (c! "' (Invalid or unsupported EDTF string)"))) := by
  constructor <;> decide +kernel

end EDTF
