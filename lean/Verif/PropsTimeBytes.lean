/- C107: TimeWithYMD and TimeWithYMDString on every string of bytes. -/
import Verif.LemmasTimeBytes
namespace EDTF
open Spec Told
variable {f : Int → Nat → Nat → Int}

/-- The text of date and time. -/
theorem instant_text {v : YMD} (h1 : -2 ^ 63 ≤ v.year) (h2 : v.year < 2 ^ 63) (t : Str) :
    padInt 4 (if v.year < 0 then flipYear v.year else v.year) ++ c! "-" ++ padInt 2 v.month ++ c! "-" ++ padInt 2 v.day ++ c! "T" ++ t = instantText v t := by
  have hp : padInt 4 (if v.year < 0 then flipYear v.year else v.year) =
      if v.year = -2 ^ 63 then c! "-9223372036854775808" else fourText v.year.natAbs := by
    rw [flipped h1 h2]
    by_cases hl : v.year = -2 ^ 63
    · rw [if_pos hl, if_pos hl, hl]; decide
    · rw [if_neg hl, if_neg hl, padInt_four]
  rw [hp, padInt_two, padInt_two]
  unfold instantText
  simp

theorem timeBytes_eq {v : YMD} (h1 : -2 ^ 63 ≤ v.year) (h2 : v.year < 2 ^ 63) (b : Bytes) : timeWithYMDBytes v b =
    match timeParseW layoutDateTime (instantText v (byteChars b)) with
    | .ok t => .ok (if v.year < 0 then timeToBCE t else t)
    | .fault e => .fault (encode e.text)
    | .panic => .panic := by
  unfold timeWithYMDBytes
  simp only [decide_eq_true_eq, show b.map byteChar = byteChars b from rfl]
  rw [instant_text h1 h2, timeParseW_bytes]
  cases timeParseW layoutDateTime (instantText v (byteChars b)) <;> rfl

theorem timeM_eq {v : YMD} (h1 : -2 ^ 63 ≤ v.year) (h2 : v.year < 2 ^ 63) (s : Str) : timeWithYMDM v s =
    match timeParseM layoutDateTime (instantText v s) with
    | .ok t => .ok (if v.year < 0 then timeToBCE t else t)
    | .fault e => .fault e
    | .panic => .panic := by
  unfold timeWithYMDM
  simp only [decide_eq_true_eq]
  rw [instant_text h1 h2]
  cases timeParseM layoutDateTime (instantText v s) <;> rfl

theorem timeParseW_cases (s : Str) : (∃ n, timeParseW layoutDateTime s = .ok n) ∨ ∃ w, timeParseW layoutDateTime s = .says w := by
  unfold timeParseW
  cases parseToksBytes layoutDateTime {} s with
  | inr e => exact .inr ⟨_, rfl⟩
  | inl f =>
    simp only
    by_cases h : f.day < 1 ∨ f.day > daysIn f.month f.year
    · rw [if_pos h]; exact .inr ⟨_, rfl⟩
    · rw [if_neg h]; exact .inl ⟨_, rfl⟩

theorem timeBytes_ok {v : YMD} (h1 : -2 ^ 63 ≤ v.year) (h2 : v.year < 2 ^ 63) (b : Bytes) (n : Int) :
    timeWithYMDBytes v b = .ok n ↔ timeWithYMD v (byteChars b) = .ok n := by
  rw [← timeWithYMDM_forget, forget_ok, timeBytes_eq h1 h2, timeM_eq h1 h2]
  have k := timeParseW_ok layoutDateTime (instantText v (byteChars b))
  rcases timeParseW_cases (instantText v (byteChars b)) with ⟨m, e⟩ | ⟨w, e⟩
  · rw [e, (k m).1 e]
    constructor <;> (intro h; injection h with h; simp only [h])
  · rw [e]
    cases hM : timeParseM layoutDateTime (instantText v (byteChars b)) with
    | ok m => rw [(k m).2 hM] at e; cases e
    | fault x => constructor <;> (intro h; cases h)
    | panic => constructor <;> (intro h; cases h)

theorem timeBytes_fault {v : YMD} (h1 : -2 ^ 63 ≤ v.year) (h2 : v.year < 2 ^ 63) (b t : Bytes) :
    timeWithYMDBytes v b = .fault t ↔ ∃ w, TimeBytesSays (instantText v (byteChars b)) w ∧ t = encode w := by
  rw [timeBytes_eq h1 h2]
  rcases timeParseW_cases (instantText v (byteChars b)) with ⟨m, e⟩ | ⟨w, e⟩
  · rw [e]
    constructor
    · intro h; cases h
    · rintro ⟨w, h, -⟩
      rw [(instantBytes_iff _ _).2 h] at e
      cases e
  · rw [e]
    constructor
    · intro h
      injection h with h
      exact ⟨w, (instantBytes_iff _ _).1 e, h.symm⟩
    · rintro ⟨w', h, rfl⟩
      rw [(instantBytes_iff _ _).2 h] at e
      injection e with e; injection e with _ e
      rw [e]

theorem timeBytes_panic {v : YMD} (h1 : -2 ^ 63 ≤ v.year) (h2 : v.year < 2 ^ 63) (b : Bytes) : timeWithYMDBytes v b ≠ .panic := by
  rw [timeBytes_eq h1 h2]
  rcases timeParseW_cases (instantText v (byteChars b)) with ⟨m, e⟩ | ⟨w, e⟩ <;> (rw [e]; nofun)

/-- **C107**: TimeWithYMD for all dates and all bytes for the time of day. -/
theorem C107_instant (hf : DayCount f) {v : YMD} (h1 : -2 ^ 63 ≤ v.year) (h2 : v.year < 2 ^ 63) (b : Bytes) (r : Said Int) :
    timeWithYMDBytes v b = r ↔ InstantBytes f v b r := by
  constructor
  · rintro rfl
    cases e : timeWithYMDBytes v b with
    | ok n => exact .ok n ((C69_instant hf h1 h2 _ _).1 ((timeBytes_ok h1 h2 b n).1 e))
    | fault t =>
      obtain ⟨w, h, rfl⟩ := (timeBytes_fault h1 h2 b t).1 e
      exact .fault w h _ (isUtf8_iff.2 rfl)
    | panic => exact absurd e (timeBytes_panic h1 h2 b)
  · intro h
    cases h with
    | ok n h => exact (timeBytes_ok h1 h2 b n).2 ((C69_instant hf h1 h2 _ _).2 h)
    | fault w h t ht => exact (timeBytes_fault h1 h2 b t).2 ⟨w, h, isUtf8_iff.1 ht⟩

/-- A year that is read has 64 bits. -/
theorem ymdBytes_year {y m d : Bytes} {v : YMD} (h : YmdBytes y m d (.ok v)) : -2 ^ 63 ≤ v.year ∧ v.year < 2 ^ 63 := by
  cases h with
  | ok s t u _ _ _ v h =>
    cases h with
    | read v hv =>
      cases hv with
      | noMonth y h => exact ⟨h.1.2.1, h.1.2.2⟩
      | noDay y m h => exact ⟨h.1.2.1, h.1.2.2⟩
      | day y m d h => exact ⟨h.1.2.1, h.1.2.2⟩

/-- **C107**: TimeWithYMDString for all strings of bytes. -/
theorem C107_instant_text (hf : DayCount f) (y m d b : Bytes) (r : Said Int) :
    timeWithYMDStringBytes y m d b = r ↔ InstantBytesText f y m d b r := by
  unfold timeWithYMDStringBytes
  constructor
  · rintro rfl
    have k := (C105_ymd y m d _).1 rfl
    cases e : ymdFromStringsBytes y m d with
    | ok v =>
      rw [e] at k
      exact .time v k _ ((C107_instant hf (ymdBytes_year k).1 (ymdBytes_year k).2 b _).1 rfl)
    | fault t => rw [e] at k; exact .date t k
    | panic => rw [e] at k; cases k
  · intro h
    cases h with
    | date t h => rw [(C105_ymd y m d _).2 h]; rfl
    | time v h r hr =>
      rw [(C105_ymd y m d _).2 h]
      exact (C107_instant hf (ymdBytes_year h).1 (ymdBytes_year h).2 b _).2 hr

example : timeWithYMDBytes ⟨1985, 4, 12⟩ (ascii (c! "23:20:30")) = .ok 482196030 := by decide +kernel
example : timeWithYMDStringBytes (ascii (c! "1985")) (ascii (c! "04")) (ascii (c! "12")) (0xFF :: ascii (c! "\"")) = .fault (ascii
    (c! "parsing time \"1985-04-12T\\xff\\\"\" as \"2006-01-02T15:04:05\": cannot parse \"\\xff\\\"\" as \"15\"")) := by decide +kernel

/-! ### Bytes that are no text -/

theorem digit_ascii {n : Nat} (h : n < 10) : (dig n).toNat < 0x80 := by
  revert n h; decide

/-- What is read of a text is ASCII. -/
theorem takes_ascii {p : TimePart} {s rest : Str} {n : Nat} (h : Takes p s n rest) (hp : ∀ c, p = .sep c → c.toNat < 0x80) :
    ∃ u, (∀ c ∈ u, c.toNat < 0x80) ∧ s = u ++ rest := by
  cases h with
  | sep c rest => exact ⟨[c], by simpa using hp c rfl, rfl⟩
  | year n h rest => exact ⟨_, pad4_ascii _, rfl⟩
  | month n h1 h2 rest => exact ⟨_, pad2_ascii _, rfl⟩
  | day n h rest => exact ⟨_, pad2_ascii _, rfl⟩
  | hour n h rest => exact ⟨_, pad2_ascii _, rfl⟩
  | hour1 n h rest hr => exact ⟨[dig n], by simpa using digit_ascii h, rfl⟩
  | minute n h rest => exact ⟨_, pad2_ascii _, rfl⟩
  | second n h t rest ht =>
    cases ht with
    | none rest h => exact ⟨_, pad2_ascii _, rfl⟩
    | some c hc ds hd rest hr =>
      refine ⟨pad2 n ++ c :: ds.map dig, ?_, by simp⟩
      intro x hx
      simp only [List.mem_append, List.mem_cons, List.mem_map] at hx
      rcases hx with hx | rfl | ⟨k, hk, rfl⟩
      · exact pad2_ascii _ x hx
      · rcases hc with rfl | rfl <;> decide
      · exact digit_ascii (hd.2 k hk)

theorem takesAll_ascii {ps : List TimePart} {s : Str} {ns : List Nat} (h : TakesAll ps s ns) (hp : ∀ c, .sep c ∈ ps → c.toNat < 0x80) :
    ∀ c ∈ s, c.toNat < 0x80 := by
  induction h with
  | nil => simp
  | cons p ps s rest n ns h k ih =>
    obtain ⟨u, hu, rfl⟩ := takes_ascii h (fun c e => hp c (by simp [e]))
    intro c hc
    rcases List.mem_append.1 hc with hc | hc
    · exact hu c hc
    · exact ih (fun c hc => hp c (by simp [hc])) c hc

theorem dateTime_seps : ∀ c, TimePart.sep c ∈ dateTimeParts → c.toNat < 0x80 := by
  intro c hc
  simp [dateTimeParts] at hc
  rcases hc with rfl | rfl | rfl <;> decide

/-- A text that is read is ASCII. -/
theorem timeParse_ascii {s : Str} {n : Int} (h : timeParseM layoutDateTime s = .ok n) : ∀ c ∈ s, c.toNat < 0x80 := by
  unfold timeParseM at h
  cases e : parseToksM layoutDateTime {} s with
  | inr x => rw [e] at h; cases h
  | inl G =>
    rw [layout_parts] at e
    obtain ⟨ns, k, -⟩ := (takes_iff _ _ _ _).1 e
    exact takesAll_ascii k dateTime_seps

/-- ASCII is UTF-8. -/
theorem byteChars_utf8 {b : Bytes} (h : ∀ c ∈ byteChars b, c.toNat < 0x80) : IsUtf8 b (byteChars b) := by
  rw [isUtf8_iff, encode_ascii h]
  unfold ascii byteChars
  rw [List.map_map]
  conv => lhs; rw [← List.map_id b]
  apply List.map_congr_left
  intro x hx
  show x = UInt8.ofNat (Char.ofNat x.toNat).toNat
  have : (Char.ofNat x.toNat).toNat = x.toNat := by
    have k : ∀ n < 256, (Char.ofNat n).toNat = n := by decide +kernel
    exact k _ x.toNat_lt
  rw [this, UInt8.ofNat_toNat]

/-- **C107**: a time of day that is not UTF-8 is an error. -/
theorem C107_broken {v : YMD} (h1 : -2 ^ 63 ≤ v.year) (h2 : v.year < 2 ^ 63) {b : Bytes} (h : ¬ ∃ s, IsUtf8 b s) :
    ∃ t, timeWithYMDBytes v b = .fault t := by
  cases e : timeWithYMDBytes v b with
  | fault t => exact ⟨t, rfl⟩
  | panic => exact absurd e (timeBytes_panic h1 h2 b)
  | ok n =>
    exfalso
    have k := (timeBytes_ok h1 h2 b n).1 e
    rw [← timeWithYMDM_forget, forget_ok, timeM_eq h1 h2] at k
    cases hM : timeParseM layoutDateTime (instantText v (byteChars b)) with
    | ok m =>
      have ha := timeParse_ascii hM
      exact h ⟨_, byteChars_utf8 (fun c hc => ha c (by unfold instantText; simp [hc]))⟩
    | fault x => rw [hM] at k; cases k
    | panic => rw [hM] at k; cases k

example : timeWithYMDBytes ⟨1985, 4, 12⟩ (ascii (c! "1985") ++ [0xFF]) = .fault (ascii
    (c! "parsing time \"1985-04-12T1985\\xff\" as \"2006-01-02T15:04:05\": cannot parse \"85\\xff\" as \":\"")) := by decide +kernel
example : ∃ t, timeWithYMDBytes ⟨1985, 4, 12⟩ [0x31, 0x39, 0x38, 0x35, 0xFF] = .fault t :=
  C107_broken (by decide) (by decide) (not_utf8.2 ⟨_, broken_1985⟩)

end EDTF
