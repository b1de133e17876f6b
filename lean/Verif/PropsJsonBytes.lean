/- C108: json.Unmarshal of every string of bytes. -/
import Verif.LemmasJsonBytes2
namespace EDTF
open Spec

/-! ### Documents of bytes -/

mutual
/-- The strings that a document gives for a date are bytes. -/
def JV.isBytes : JV → Prop
  | .null => True
  | .bool _ => True
  | .num _ => True
  | .str raw _ => ∀ c ∈ raw, c.toNat < 256
  | .arr _ => True
  | .obj ms => JV.membersBytes ms
def JV.membersBytes : List ((Str × Str) × JV) → Prop
  | [] => True
  | (_, v) :: ms => v.isBytes ∧ JV.membersBytes ms
end

mutual
theorem jtext_bytes : {v : JV} → {t : Str} → JText v t → (∀ c ∈ t, c.toNat < 256) → v.isBytes
  | _, _, .null, _ => by rw [JV.isBytes]; trivial
  | _, _, .true, _ => by rw [JV.isBytes]; trivial
  | _, _, .false, _ => by rw [JV.isBytes]; trivial
  | _, _, .num _, _ => by rw [JV.isBytes]; trivial
  | _, _, .str _, h => by rw [JV.isBytes]; exact fun c hc => h c (by simp [hc])
  | _, _, .arr0 _, _ => by rw [JV.isBytes]; trivial
  | _, _, .arr _, _ => by rw [JV.isBytes]; trivial
  | _, _, .obj0 _, _ => by rw [JV.isBytes, JV.membersBytes]; trivial
  | _, _, .obj k, h => by rw [JV.isBytes]; exact jmembers_bytes k fun c hc => h c (by simp [hc])
theorem jmembers_bytes : {ms : List ((Str × Str) × JV)} → {t : Str} → JMembers ms t → (∀ c ∈ t, c.toNat < 256) → JV.membersBytes ms
  | _, _, .one _ _ _ _ k _, h => by rw [JV.membersBytes, JV.membersBytes]; exact ⟨jtext_bytes k fun c hc => h c (by simp [hc]), trivial⟩
  | _, _, .more _ _ _ _ k _ ks, h => by
    rw [JV.membersBytes]
    exact ⟨jtext_bytes k fun c hc => h c (by simp [hc]), jmembers_bytes ks fun c hc => h c (by simp [hc])⟩
end

/-! ### Decoding -/

theorem readMembers_pair {α : Type} {f : α → Str → JV → Option α} (hf : ∀ a k v, JV.isBytes v → f a k v.unquoted = f a k v.asText) :
    ∀ (ms : List ((Str × Str) × JV)) (a : α), JV.membersBytes ms → readMembers f a (JV.unquotedMembers ms) = readMembers f a (JV.asTextMembers ms) := by
  intro ms
  induction ms with
  | nil => intro a _; rw [JV.unquotedMembers, JV.asTextMembers]
  | cons m ms ih =>
    obtain ⟨⟨k, k'⟩, v⟩ := m
    intro a h
    rw [JV.membersBytes] at h
    rw [JV.unquotedMembers, JV.asTextMembers, readMembers, readMembers, hf _ _ _ h.1]
    show (f a (unquoteBytes k) v.asText).bind _ = (f a (unquoteBytes k) v.asText).bind _
    congr 1
    funext b
    exact ih b h.2

theorem readStr_pair (old : Str) (v : JV) : readStr old v.unquoted = readStr old v.asText := by
  cases v <;> rw [JV.unquoted, JV.asText] <;> rfl

theorem readInt_pair (old : Int) (v : JV) : readInt old v.unquoted = readInt old v.asText := by
  cases v <;> rw [JV.unquoted, JV.asText] <;> rfl

theorem readPrec_pair (old : Prec) (v : JV) : readPrec old v.unquoted = readPrec old v.asText := by
  cases v <;> rw [JV.unquoted, JV.asText] <;> rfl

theorem readBool_pair (old : Bool) (v : JV) : readBool old v.unquoted = readBool old v.asText := by
  cases v <;> rw [JV.unquoted, JV.asText] <;> rfl

theorem decimal_ascii {s : Str} {n : Int} (h : Decimal s n) : ∀ c ∈ s, c.toNat < 0x80 := by
  obtain ⟨ds, h1, h2, h3⟩ := h
  have hd := digits_ascii h2
  intro c hc
  rcases h3 with ⟨h | h, _⟩ | ⟨h, _⟩
  · rw [h] at hc; exact hd c hc
  · rw [h] at hc
    rcases List.mem_cons.1 hc with rfl | hc
    · decide
    · exact hd c hc
  · rw [h] at hc
    rcases List.mem_cons.1 hc with rfl | hc
    · decide
    · exact hd c hc

theorem runes_ascii {s : Str} (h : ∀ c ∈ s, c.toNat < 0x80) : runes (unbyte s) = s := by
  have := runes_encode s
  rwa [encode_ascii h] at this

theorem accepted_ascii {s : Str} {n : Int} (h : unmarshalTimestamp s = .ok n) : ∀ c ∈ s, c.toNat < 0x80 := by
  obtain ⟨i, j, t, rfl, k, -⟩ := (C45_accepts s n).1 h
  intro c hc
  simp only [List.mem_append, List.mem_replicate] at hc
  rcases hc with (⟨-, rfl⟩ | hc) | ⟨-, rfl⟩
  · decide
  · exact decimal_ascii k c hc
  · decide

theorem readTimestamp_pair {v : JV} (h : v.isBytes) : readTimestamp v.unquoted = readTimestamp v.asText := by
  cases v with
  | str raw val =>
    rw [JV.isBytes] at h
    rw [JV.unquoted, JV.asText]
    have ok : ∀ (t val : Str) (n : Int), readTimestamp (.str t val) = some n ↔ unmarshalTimestamp ('"' :: (t ++ ['"'])) = .ok n := by
      intro t val n
      rw [readTimestamp]
      cases unmarshalTimestamp ('"' :: (t ++ ['"'])) <;> simp
    apply Option.ext
    intro n
    rw [ok, ok]
    constructor
    · intro k
      have ha : ∀ c ∈ raw, c.toNat < 0x80 := fun c hc => accepted_ascii k c (by simp [hc])
      rw [runes_ascii ha]
      exact k
    · intro k
      have ha : ∀ c ∈ runes (unbyte raw), c.toNat < 0x80 := fun c hc => accepted_ascii k c (by simp [hc])
      have e := runes_whole (fun hc => absurd (ha _ hc) (by decide)) rfl (b := unbyte raw)
      have hr : raw = runes (unbyte raw) := by
        have h1 : byteChars (unbyte raw) = raw := by
          unfold byteChars unbyte
          rw [List.map_map]
          conv => rhs; rw [← List.map_id raw]
          apply List.map_congr_left
          intro c hc
          show Char.ofNat (UInt8.ofNat c.toNat).toNat = c
          rw [show (UInt8.ofNat c.toNat).toNat = c.toNat from Nat.mod_eq_of_lt (h c hc), Char.ofNat_toNat]
        rw [encode_ascii ha] at e
        conv => lhs; rw [← h1, e]
        exact byteChars_ascii ha
      rw [hr]
      exact k
  | _ => rw [JV.unquoted, JV.asText] <;> rfl

theorem readPtr_pair {α : Type} {zero : α} {f : α → JV → Option α} {v : JV} (hf : ∀ a, f a v.unquoted = f a v.asText) (old : Option α) :
    readPtr zero f old v.unquoted = readPtr zero f old v.asText := by
  cases v with
  | null => rw [JV.unquoted, JV.asText]
  | _ =>
    (rw [JV.unquoted, JV.asText] at *) <;> (unfold readPtr; simp only [hf])

theorem ymd_pair {v : JV} (h : v.isBytes) (y : YMD) : YMD.ofJson y v.unquoted = YMD.ofJson y v.asText := by
  cases v with
  | obj ms =>
    rw [JV.isBytes] at h
    rw [JV.unquoted, JV.asText, YMD.ofJson, YMD.ofJson]
    exact readMembers_pair (fun a k v _ => by unfold YMD.readField; simp only [readInt_pair]) ms y h
  | _ => rw [JV.unquoted, JV.asText] <;> rfl

theorem date_pair {v : JV} (h : v.isBytes) (y : Date) : Date.ofJson y v.unquoted = Date.ofJson y v.asText := by
  cases v with
  | obj ms =>
    rw [JV.isBytes] at h
    rw [JV.unquoted, JV.asText, Date.ofJson, Date.ofJson]
    refine readMembers_pair (fun a k v hv => ?_) ms y h
    unfold Date.readField
    rw [readPtr_pair (f := fun _ w => readTimestamp w) (fun _ => readTimestamp_pair hv), readPtr_pair (f := YMD.ofJson) (fun _ => ymd_pair hv _)]
    simp only [readStr_pair, readPrec_pair, readBool_pair]
  | _ => rw [JV.unquoted, JV.asText] <;> rfl

theorem dateRange_pair {v : JV} (h : v.isBytes) (y : DateRange) : DateRange.ofJson y v.unquoted = DateRange.ofJson y v.asText := by
  cases v with
  | obj ms =>
    rw [JV.isBytes] at h
    rw [JV.unquoted, JV.asText, DateRange.ofJson, DateRange.ofJson]
    refine readMembers_pair (fun a k v hv => ?_) ms y h
    unfold DateRange.readField
    rw [readPtr_pair (f := Date.ofJson) (fun _ => date_pair hv _), readPtr_pair (f := Date.ofJson) (fun _ => date_pair hv _)]
    simp only [readStr_pair]
  | _ => rw [JV.unquoted, JV.asText] <;> rfl

theorem edtf_pair {v : JV} (h : v.isBytes) (y : EDTFDate) : EDTFDate.ofJson y v.unquoted = EDTFDate.ofJson y v.asText := by
  cases v with
  | obj ms =>
    rw [JV.isBytes] at h
    rw [JV.unquoted, JV.asText, EDTFDate.ofJson, EDTFDate.ofJson]
    refine readMembers_pair (fun a k v hv => ?_) ms y h
    unfold EDTFDate.readField
    rw [readPtr_pair (f := DateRange.ofJson) (fun _ => dateRange_pair hv _), readPtr_pair (f := DateRange.ofJson) (fun _ => dateRange_pair hv _)]
    simp only [readStr_pair, readInt_pair]
  | _ => rw [JV.unquoted, JV.asText] <;> rfl

theorem unmarshal_runes (b : Bytes) : EDTFDate.unmarshalBytes b = EDTFDate.unmarshal (runes b) := by
  unfold EDTFDate.unmarshalBytes EDTFDate.unmarshal
  rw [readJson_runes, show b.map byteChar = byteChars b from rfl]
  cases e : readJson (byteChars b) with
  | none => rfl
  | some v =>
    obtain ⟨⟨a, t, r, _, ht, _, hs⟩, _⟩ := (C71_reads _ _).1 e
    have hv : v.isBytes := jtext_bytes ht fun c hc => by
      have : c ∈ byteChars b := by rw [hs]; simp [hc]
      unfold byteChars at this
      obtain ⟨x, _, rfl⟩ := List.mem_map.1 this
      rw [byteChar_nat]
      exact x.toNat_lt
    exact edtf_pair hv _

/-! ### The text that bytes are read as -/

theorem readAs_runes {b : Bytes} {s : Str} (h : ReadAs b s) : runes b = s := by
  induction h with
  | nil => rfl
  | char c v w s h _ ih =>
    rw [isUtf8_iff.1 h, runes_append, ih]
    rfl
  | broken x w s h _ ih =>
    cases e : decodeRune x w with
    | none => rw [runes_bad e, ih]; rfl
    | some p =>
      obtain ⟨c, r⟩ := p
      exact absurd (isUtf8_iff.2 rfl) (h c (encode [c]) r (decode_split e))

theorem runes_readAs : ∀ (n : Nat) (b : Bytes), b.length ≤ n → ReadAs b (runes b) := by
  intro n
  induction n with
  | zero =>
    intro b h
    have : b = [] := List.length_eq_zero_iff.1 (by omega)
    subst this
    exact .nil
  | succ n ih =>
    intro b h
    cases b with
    | nil => exact .nil
    | cons x w =>
      simp only [List.length_cons] at h
      cases e : decodeRune x w with
      | none =>
        rw [runes_bad e]
        refine .broken x w _ ?_ (ih w (by omega))
        intro c p q hp hc
        have hb : (x :: w).map UInt8.toNat = utf8 c ++ q.map UInt8.toNat := by rw [hp, List.map_append, hc]; simp
        obtain ⟨x', w', hbt, hdec⟩ := decode_complete c hb
        injection hbt with h1 h2
        rw [h1, h2, hdec] at e
        cases e
      | some p =>
        obtain ⟨c, r⟩ := p
        have hs := decode_split e
        rw [runes_cons e, hs]
        refine .char c _ r _ (isUtf8_iff.2 rfl) (ih r ?_)
        have h1 := congrArg List.length hs
        have h2 : 0 < (encode [c]).length := List.length_pos_iff.2 (by simpa [encode] using rune_some c)
        simp only [List.length_cons, List.length_append] at h1
        omega

theorem readAs_iff {b : Bytes} {s : Str} : ReadAs b s ↔ runes b = s :=
  ⟨readAs_runes, fun h => h ▸ runes_readAs _ b (Nat.le_refl _)⟩

/-- **C108**: all bytes are read as one text. -/
theorem C108_text (b : Bytes) : (∃ s, ReadAs b s) ∧ (∀ s t, ReadAs b s → ReadAs b t → s = t) ∧ ∀ s, IsUtf8 b s → ReadAs b s :=
  ⟨⟨_, readAs_iff.2 rfl⟩, fun _ _ h k => (readAs_iff.1 h).symm.trans (readAs_iff.1 k), fun s h => readAs_iff.2 (by rw [isUtf8_iff.1 h, runes_encode])⟩

/-- **C108**: what is decoded from bytes. -/
theorem C108_decodes (b : Bytes) (d : EDTFDate) : EDTFDate.unmarshalBytes b = some d ↔
    ∃ s v, ReadAs b s ∧ JDocument v s ∧ Nested 10000 v ∧ EdtfFrom ⟨none, none, [], 0, []⟩ v d := by
  rw [unmarshal_runes, C72_decodes]
  constructor
  · rintro ⟨v, h⟩; exact ⟨_, v, readAs_iff.2 rfl, h⟩
  · rintro ⟨s, v, hs, h⟩; rw [readAs_iff] at hs; subst hs; exact ⟨v, h⟩

/-- **C108**: bytes that are UTF-8 give what their text gives. -/
theorem C108_utf8 {b : Bytes} {s : Str} (h : IsUtf8 b s) : EDTFDate.unmarshalBytes b = EDTFDate.unmarshal s := by
  rw [unmarshal_runes, isUtf8_iff.1 h, runes_encode]

/-- **C108**: bytes that are read as the same text give the same date. -/
theorem C108_same {a b : Bytes} {s : Str} (ha : ReadAs a s) (hb : ReadAs b s) : EDTFDate.unmarshalBytes a = EDTFDate.unmarshalBytes b := by
  rw [unmarshal_runes, unmarshal_runes, readAs_iff.1 ha, readAs_iff.1 hb]

theorem plain_items {s : Str} (h : ∀ c ∈ s, c ≠ '"' ∧ c ≠ '\\' ∧ 32 ≤ c.toNat) : JItems s (s.map .chr) := by
  induction s with
  | nil => exact .nil
  | cons c s ih =>
    have hc := h c (by simp)
    exact .plain hc.1 hc.2.1 hc.2.2 (ih fun c hc => h c (by simp [hc]))

theorem plain_units (s : Str) : unitsStr (s.map .chr) = s := by
  induction s with
  | nil => rfl
  | cons c s ih => rw [List.map_cons, unitsStr, ih]

/-- **C108**: bytes between quotes, where those that are not UTF-8 are lost. -/
theorem C108_string {w : Bytes} (h : ∀ x ∈ w, x ≠ 0x22 ∧ x ≠ 0x5C ∧ 32 ≤ x.toNat) {s : Str} (hs : ReadAs w s) :
    EDTFDate.unmarshalBytes (ascii (c! "{\"edtf\":\"") ++ w ++ ascii (c! "\"}")) = some { start := none, stop := none, edtf := s, level := 0, feature := [] } := by
  rw [readAs_iff] at hs
  have hp : ∀ c ∈ s, c ≠ '"' ∧ c ≠ '\\' ∧ 32 ≤ c.toNat := by
    intro c hc
    rw [← hs] at hc
    have low : ∀ d : Char, d.toNat < 0x80 → c = d → UInt8.ofNat d.toNat ∈ w := fun d hd e => (mem_runes hd).1 (e ▸ hc)
    refine ⟨fun e => (h _ (low '"' (by decide) e)).1 rfl, fun e => (h _ (low '\\' (by decide) e)).2.1 rfl, ?_⟩
    apply Nat.le_of_not_lt
    intro k
    have h1 := (h _ (low c (by omega) rfl)).2.2
    rw [show (UInt8.ofNat c.toNat).toNat = c.toNat from Nat.mod_eq_of_lt (by omega)] at h1
    omega
  have hr : runes (ascii (c! "{\"edtf\":\"") ++ w ++ ascii (c! "\"}")) = c! "{\"edtf\":\"" ++ (s ++ c! "\"}") := by
    rw [List.append_assoc, ← encode_ascii (s := c! "{\"edtf\":\"") (by decide), runes_append,
      runes_two (by exact newRune_ascii (by decide)) _ w (Nat.le_refl _), hs]
    rfl
  rw [unmarshal_runes, hr, C72_decodes]
  have e1 : JString (c! "edtf") (c! "edtf") := ⟨_, plain_items (by decide), (plain_units _).symm⟩
  have e2 : JString s s := ⟨_, plain_items hp, (plain_units _).symm⟩
  have m := JMembers.one (a := []) (b := []) (c := []) (d := []) (by nofun) e1 (by nofun) (by nofun) (JText.str e2) (by nofun)
  refine ⟨_, ⟨[], _, [], by nofun, .obj m, by nofun, by simp⟩, .obj (.cons .str .nil), .inr ⟨_, rfl, ?_⟩⟩
  have g : ∀ n, given n [((c! "edtf", c! "edtf"), JV.str s s)] = if NameIs (c! "edtf") n then [JV.str s s] else [] := by
    intro n
    unfold given
    by_cases k : NameIs (c! "edtf") n <;> simp [k]
  refine ⟨?_, ?_, ?_, ?_, ?_⟩
  · rw [g, if_neg (by decide)]; exact .nil
  · rw [g, if_neg (by decide)]; exact .nil
  · rw [g, if_pos (by decide)]; exact .cons (.inr ⟨_, rfl⟩) .nil
  · rw [g, if_neg (by decide)]; exact .nil
  · rw [g, if_neg (by decide)]; exact .nil

example : ReadAs [0x31, 0xFF, 0xC3] (c! "1\uFFFD\uFFFD") := readAs_iff.2 (by decide +kernel)
example : EDTFDate.unmarshalBytes (ascii (c! "{\"edtf\":\"") ++ [0x31, 0xFF, 0xC3] ++ ascii (c! "\"}")) = some ⟨none, none, c! "1\uFFFD\uFFFD", 0, []⟩ :=
  C108_string (by decide) (readAs_iff.2 (by decide +kernel))
example : EDTFDate.unmarshalBytes (ascii (c! "{\"edtf\":") ++ [0xFF] ++ ascii (c! "}")) = none := by decide +kernel
example : EDTFDate.unmarshalBytes (ascii (c! "{\"start\":{\"lower\":{\"timestamp\":\"12") ++ [0xFF] ++ ascii (c! "\"}}}")) = none := by decide +kernel
example : EDTFDate.unmarshalBytes (encode (c! "{\"EDTF\":\"é\\ud83d\\ude00\"}")) = some ⟨none, none, c! "é😀", 0, []⟩ := by decide +kernel

end EDTF
