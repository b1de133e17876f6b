/- C109: the methods of Timestamp for JSON on every string of bytes. -/
import Verif.SpecTimestampBytes
import Verif.PropsBytesYmd
import Verif.PropsMisc
namespace EDTF
open Spec

theorem drop_replicate (x : UInt8) (i : Nat) {m : Bytes} (h : m.head? ≠ some x) : (List.replicate i x ++ m).dropWhile (· == x) = m := by
  induction i with
  | zero =>
    rw [List.replicate_zero, List.nil_append]
    cases m with
    | nil => rfl
    | cons y m =>
      rw [List.dropWhile_cons]
      have : (y == x) = false := by
        cases e : y == x with
        | false => rfl
        | true => exact absurd (by rw [List.head?_cons, eq_of_beq e]) h
      rw [this]
      rfl
  | succ i ih =>
    rw [List.replicate_succ, List.cons_append, List.dropWhile_cons, if_pos (by simp), ih]

theorem drop_inv (x : UInt8) (b : Bytes) : ∃ i, b = List.replicate i x ++ b.dropWhile (· == x) := by
  induction b with
  | nil => exact ⟨0, rfl⟩
  | cons y b ih =>
    rw [List.dropWhile_cons]
    cases e : y == x with
    | false => exact ⟨0, rfl⟩
    | true =>
      obtain ⟨i, h⟩ := ih
      refine ⟨i + 1, ?_⟩
      rw [List.replicate_succ, List.cons_append, if_pos rfl, ← h, eq_of_beq e]

theorem drop_head (x : UInt8) (b : Bytes) : (b.dropWhile (· == x)).head? ≠ some x := by
  induction b with
  | nil => nofun
  | cons y b ih =>
    rw [List.dropWhile_cons]
    cases e : y == x with
    | true => rw [if_pos rfl]; exact ih
    | false =>
      rw [if_neg (by decide), List.head?_cons]
      intro k
      injection k with k
      rw [k] at e
      simp at e

theorem trim_between (b : Bytes) : InQuotes b (trimQuotes b) := by
  unfold trimQuotes
  obtain ⟨i, h1⟩ := drop_inv 0x22 b
  have h2 := drop_head 0x22 b
  generalize b.dropWhile (· == 0x22) = d at *
  obtain ⟨j, h3⟩ := drop_inv 0x22 d.reverse
  have h4 := drop_head 0x22 d.reverse
  generalize d.reverse.dropWhile (· == 0x22) = e at *
  have h5 : d = e.reverse ++ List.replicate j 0x22 := by
    have := congrArg List.reverse h3
    rwa [List.reverse_reverse, List.reverse_append, List.reverse_replicate] at this
  refine ⟨⟨i, j, by rw [h1, h5, List.append_assoc]⟩, ?_, ?_⟩
  · rw [h5] at h2
    intro k
    apply h2
    cases hr : e.reverse with
    | nil => rw [hr] at k; cases k
    | cons y l => rw [hr] at k; rw [List.cons_append]; exact k
  · rw [List.getLast?_reverse]; exact h4

theorem between_trim {b m : Bytes} (h : InQuotes b m) : m = trimQuotes b := by
  obtain ⟨⟨i, j, rfl⟩, h1, h2⟩ := h
  unfold trimQuotes
  cases m with
  | nil =>
    have : List.replicate i (0x22 : UInt8) ++ [] ++ List.replicate j 0x22 = List.replicate (i + j) 0x22 ++ [] := by
      rw [List.append_nil, List.append_nil, List.replicate_append_replicate]
    rw [this, drop_replicate _ _ (by nofun)]
    rfl
  | cons y m =>
    rw [List.append_assoc, drop_replicate 0x22 i (by exact h1), List.reverse_append, List.reverse_replicate,
      drop_replicate 0x22 j (by rw [List.head?_reverse]; exact h2), List.reverse_reverse]

theorem parseIntBytes_ok {b : Bytes} {v : Int} : parseIntBytes b = .ok v ↔ IntBytes b v := by
  rw [← atoi_int]
  unfold parseIntBytes atoiBytes atoi
  cases parseInt 64 (runes b) with
  | none => exact ⟨nofun, nofun⟩
  | some w => exact Iff.rfl

theorem parseIntBytes_no {b t : Bytes} : parseIntBytes b = .fault t ↔
    ∃ q r, EscapedBytes b q ∧ NoIntBytesReason b r ∧ IsUtf8 t (c! "strconv.ParseInt: parsing \"" ++ q ++ c! "\": " ++ r) := by
  have none_iff : parseInt 64 (runes b) = none ↔ ∀ v, ¬ IntText (runes b) v := by
    constructor
    · intro h v hv; rw [show parseInt 64 (runes b) = some v from (atoi_iff _ v).2 hv] at h; cases h
    · intro h
      cases hh : parseInt 64 (runes b) with
      | none => rfl
      | some v => exact absurd ((atoi_iff _ v).1 hh) (h v)
  have text : ∀ r, c! "strconv.ParseInt: parsing " ++ quoteBytes b ++ c! ": " ++ r = c! "strconv.ParseInt: parsing \"" ++ quoteRunes b.length b ++ c! "\": " ++ r := by
    intro r; unfold quoteBytes; simp
  constructor
  · intro h
    unfold parseIntBytes at h
    cases hh : parseInt 64 (runes b) with
    | some v => rw [hh] at h; cases h
    | none =>
      rw [hh] at h
      injection h with h
      rw [text] at h
      exact ⟨_, _, (escapedBytes_iff b _).2 rfl, (noIntBytesReason_iff b _).2 ((noIntReason_iff _ _).2 ⟨none_iff.1 hh, rfl⟩), isUtf8_iff.2 h.symm⟩
  · rintro ⟨q, r, hq, hr, ht⟩
    obtain ⟨h1, rfl⟩ := (noIntReason_iff _ _).1 ((noIntBytesReason_iff b r).1 hr)
    rw [(escapedBytes_iff b q).1 hq, ← text] at ht
    unfold parseIntBytes
    rw [none_iff.2 h1, isUtf8_iff.1 ht]

theorem parseIntBytes_panic (b : Bytes) : parseIntBytes b ≠ .panic := by
  unfold parseIntBytes
  cases parseInt 64 (runes b) <;> nofun

/-- **C109**: what becomes of a timestamp for all bytes. -/
theorem C109_unmarshal (ts : Int) (b : Bytes) (r : Int × Option Bytes) : unmarshalTimestampBytes ts b = r ↔ TimestampRead ts b r := by
  unfold unmarshalTimestampBytes
  constructor
  · rintro rfl
    cases e : parseIntBytes (trimQuotes b) with
    | ok v => exact .ok _ (trim_between b) v (parseIntBytes_ok.1 e)
    | fault t =>
      obtain ⟨q, r, h1, h2, h3⟩ := parseIntBytes_no.1 e
      exact .error _ (trim_between b) q r h1 h2 t h3
    | panic => exact absurd e (parseIntBytes_panic _)
  · intro h
    cases h with
    | ok m h v hv => rw [← between_trim h, parseIntBytes_ok.2 hv]
    | error m h q r hq hr t ht => rw [← between_trim h, parseIntBytes_no.2 ⟨q, r, hq, hr, ht⟩]

/-- **C109**: without an error the timestamp is the number, whatever it was; with one it is left as it was. -/
theorem C109_error (ts : Int) (b : Bytes) : ((∃ e, (unmarshalTimestampBytes ts b).2 = some e) → (unmarshalTimestampBytes ts b).1 = ts) ∧
    ∀ ts', (unmarshalTimestampBytes ts' b).2 = (unmarshalTimestampBytes ts b).2 ∧
      ((unmarshalTimestampBytes ts b).2 = none → unmarshalTimestampBytes ts' b = unmarshalTimestampBytes ts b) := by
  unfold unmarshalTimestampBytes
  cases e : parseIntBytes (trimQuotes b) with
  | ok v => exact ⟨nofun, fun _ => ⟨rfl, fun _ => rfl⟩⟩
  | fault t => exact ⟨fun _ => rfl, fun _ => ⟨rfl, nofun⟩⟩
  | panic => exact absurd e (parseIntBytes_panic _)

/-- **C109**: what is written is ASCII and is read back, with or without quotes around it. -/
theorem C109_roundtrip {n : Int} (h1 : -2 ^ 63 ≤ n) (h2 : n < 2 ^ 63) (ts : Int) : IntBytes (marshalTimestampBytes n) n ∧
    unmarshalTimestampBytes ts (marshalTimestampBytes n) = (n, none) ∧
    unmarshalTimestampBytes ts (0x22 :: (marshalTimestampBytes n ++ [0x22])) = (n, none) := by
  have hd := (C45_roundtrip h1 h2).1
  have hi : IntBytes (marshalTimestampBytes n) n := ⟨itoa n, encode_isUtf8 _, hd, h1, h2⟩
  have hq := decimal_no_quote hd
  have hm : (0x22 : UInt8) ∉ marshalTimestampBytes n := by
    intro h
    have := (mem_runes (c := '"') (by decide) (b := marshalTimestampBytes n)).2 h
    unfold marshalTimestampBytes at this
    rw [runes_encode] at this
    exact hq.2 this
  have ends : (marshalTimestampBytes n).head? ≠ some 0x22 ∧ (marshalTimestampBytes n).getLast? ≠ some 0x22 :=
    ⟨fun h => hm (List.mem_of_mem_head? (by rw [h]; rfl)), fun h => hm (List.mem_of_getLast? h)⟩
  refine ⟨hi, ?_, ?_⟩
  · exact (C109_unmarshal ts _ _).2 (.ok _ ⟨⟨0, 0, by simp⟩, ends⟩ n hi)
  · exact (C109_unmarshal ts _ _).2 (.ok _ ⟨⟨1, 1, by simp⟩, ends⟩ n hi)

/-- **C109**: what the model of the text says. -/
theorem C109_utf8 {b : Bytes} {s : Str} (h : IsUtf8 b s) (ts v : Int) : unmarshalTimestampBytes ts b = (v, none) ↔ unmarshalTimestamp s = .ok v := by
  rw [C109_unmarshal, C45_accepts]
  have quotes : ∀ i, encode (List.replicate i '"') = List.replicate i 0x22 := by
    intro i
    induction i with
    | zero => rfl
    | succ i ih => rw [List.replicate_succ, List.replicate_succ, ← ih]; rfl
  rw [isUtf8_iff] at h
  subst h
  constructor
  · intro k
    cases k with
    | ok m hm v hv =>
      obtain ⟨⟨i, j, e⟩, -, -⟩ := hm
      obtain ⟨t, ht, hv⟩ := hv
      rw [isUtf8_iff] at ht
      subst ht
      refine ⟨i, j, t, ?_, hv⟩
      rw [← quotes, ← quotes, ← encode_append, ← encode_append] at e
      have := congrArg runes e
      rwa [runes_encode, runes_encode] at this
  · rintro ⟨i, j, t, rfl, k⟩
    have hq := decimal_no_quote k.1
    have hm : (0x22 : UInt8) ∉ encode t := by
      intro h
      have := (mem_runes (c := '"') (by decide) (b := encode t)).2 h
      rw [runes_encode] at this
      exact hq.2 this
    exact .ok (encode t) ⟨⟨i, j, by rw [encode_append, encode_append, quotes, quotes]⟩,
      fun h => hm (List.mem_of_mem_head? (by rw [h]; rfl)), fun h => hm (List.mem_of_getLast? h)⟩ v ⟨t, encode_isUtf8 t, k⟩

example : unmarshalTimestampBytes 7 (ascii (c! "\"-62198755200\"")) = (-62198755200, none) := by decide +kernel
example : unmarshalTimestampBytes 7 (ascii (c! "\"12\"3") ++ [0xFF, 0x22]) =
    (7, some (ascii (c! "strconv.ParseInt: parsing \"12\\\"3\\xff\": invalid syntax"))) := by decide +kernel
example : unmarshalTimestampBytes 7 (ascii (c! "null")) = (7, some (ascii (c! "strconv.ParseInt: parsing \"null\": invalid syntax"))) := by decide +kernel
example : unmarshalTimestampBytes 7 (ascii (c! "9223372036854775808")) =
    (7, some (ascii (c! "strconv.ParseInt: parsing \"9223372036854775808\": value out of range"))) := by decide +kernel
example : marshalTimestampBytes (-9223372036854775808) = ascii (c! "-9223372036854775808") := by decide +kernel
example : unmarshalTimestampBytes 7 (0x22 :: (marshalTimestampBytes (-5) ++ [0x22])) = (-5, none) :=
  (C109_roundtrip (by decide) (by decide) 7).2.2
example : unmarshalTimestampBytes 7 (encode (c! "\"\"+12")) = (12, none) ↔ unmarshalTimestamp (c! "\"\"+12") = .ok 12 :=
  C109_utf8 (encode_isUtf8 _) 7 12

end EDTF
