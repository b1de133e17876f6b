/- C107: of bytes that are UTF-8, TimeWithYMD says what it says of the text. -/
import Verif.PropsTimeBytes
import Verif.PropsBytes2
namespace EDTF
open Spec Told

/-! ### Bytes that are text -/

theorem encodeRune_core (c : Char) : String.utf8EncodeChar c = encodeRune c := by
  have hc : c.val.toNat < 0x110000 := by
    have := c.valid
    rcases this with h | h
    · exact Nat.lt_trans h (by decide)
    · exact h.2
  show (if c.val.toNat ≤ 0x7f then [UInt8.ofNat c.val.toNat]
    else if c.val.toNat ≤ 0x7ff then [UInt8.ofNat (c.val.toNat / 64 % 0x20 + 0xc0), UInt8.ofNat (c.val.toNat % 0x40 + 0x80)]
    else if c.val.toNat ≤ 0xffff then [UInt8.ofNat (c.val.toNat / 4096 % 0x10 + 0xe0), UInt8.ofNat (c.val.toNat / 64 % 0x40 + 0x80), UInt8.ofNat (c.val.toNat % 0x40 + 0x80)]
    else [UInt8.ofNat (c.val.toNat / 262144 % 0x08 + 0xf0), UInt8.ofNat (c.val.toNat / 4096 % 0x40 + 0x80), UInt8.ofNat (c.val.toNat / 64 % 0x40 + 0x80), UInt8.ofNat (c.val.toNat % 0x40 + 0x80)]) = _
  unfold encodeRune
  rw [show c.toNat = c.val.toNat from rfl]
  generalize c.val.toNat = n at *
  by_cases h1 : n < 0x80
  · rw [if_pos h1, if_pos (by omega)]
  rw [if_neg h1, if_neg (by omega)]
  by_cases h2 : n < 0x800
  · rw [if_pos h2, if_pos (by omega)]
    rw [show n / 64 % 0x20 + 0xc0 = 0xC0 + n / 64 by omega, Nat.add_comm (n % 0x40)]
  rw [if_neg h2, if_neg (by omega)]
  by_cases h3 : n < 0x10000
  · rw [if_pos h3, if_pos (by omega), show n / 4096 % 0x10 + 0xe0 = 0xE0 + n / 4096 by omega, Nat.add_comm (n / 64 % 0x40), Nat.add_comm (n % 0x40)]
  · rw [if_neg h3, if_neg (by omega), show n / 262144 % 0x08 + 0xf0 = 0xF0 + n / 262144 by omega, Nat.add_comm (n / 64 % 0x40), Nat.add_comm (n % 0x40),
      Nat.add_comm (n / 4096 % 0x40)]

theorem rune_some (c : Char) : encodeRune c ≠ [] := by
  unfold encodeRune
  by_cases h1 : c.toNat < 0x80
  · rw [if_pos h1]; nofun
  rw [if_neg h1]
  by_cases h2 : c.toNat < 0x800
  · rw [if_pos h2]; nofun
  rw [if_neg h2]
  by_cases h3 : c.toNat < 0x10000
  · rw [if_pos h3]; nofun
  · rw [if_neg h3]; nofun

/-- The bytes of a text as characters. -/
def latin (s : Str) : Str := byteChars (encode s)

theorem latin_cons (c : Char) (s : Str) : latin (c :: s) = byteChars (encodeRune c) ++ latin s := by
  unfold latin byteChars
  rw [encode_cons, List.map_append]

theorem latin_low {c : Char} (h : c.toNat < 0x80) (s : Str) : latin (c :: s) = c :: latin s := by
  rw [latin_cons]
  have : byteChars (encodeRune c) = [c] := by
    have := byteChars_ascii (s := [c]) (by simpa using h)
    rw [← encode_ascii (by simpa using h)] at this
    simpa [encode] using this
  rw [this]
  rfl

theorem latin_app {u : Str} (h : ∀ c ∈ u, c.toNat < 0x80) (s : Str) : latin (u ++ s) = u ++ latin s := by
  induction u with
  | nil => rfl
  | cons c u ih =>
    rw [List.cons_append, latin_low (h c (by simp)), ih (fun c hc => h c (by simp [hc]))]
    rfl

theorem byteChar_nat (x : UInt8) : (Char.ofNat x.toNat).toNat = x.toNat := by
  have k : ∀ n < 256, (Char.ofNat n).toNat = n := by decide +kernel
  exact k _ x.toNat_lt

theorem high_bytes {c : Char} (h : 0x80 ≤ c.toNat) : ∀ x ∈ encodeRune c, 0x80 ≤ x.toNat := by
  intro x hx
  apply Nat.le_of_not_lt
  intro k
  have := rune_low (c := c) (n := x.toNat) k (by rwa [UInt8.ofNat_toNat])
  omega

/-- A character of ASCII at the beginning is one of the text. -/
theorem latin_head {s r : Str} {d : Char} (hd : d.toNat < 0x80) (h : latin s = d :: r) : ∃ t, s = d :: t ∧ r = latin t := by
  cases s with
  | nil => cases h
  | cons c t =>
    by_cases hc : c.toNat < 0x80
    · rw [latin_low hc] at h
      injection h with h1 h2
      exact ⟨t, by rw [h1], h2.symm⟩
    · exfalso
      rw [latin_cons] at h
      cases e : encodeRune c with
      | nil => exact rune_some c e
      | cons x l =>
        have hx := high_bytes (c := c) (by omega) x (by rw [e]; simp)
        rw [e] at h
        injection h with h1 _
        have k := byteChar_nat x
        rw [show Char.ofNat x.toNat = d from h1] at k
        omega

theorem latin_prefix {u s r : Str} (hu : ∀ c ∈ u, c.toNat < 0x80) (h : latin s = u ++ r) : ∃ t, s = u ++ t ∧ r = latin t := by
  induction u generalizing s with
  | nil => exact ⟨s, rfl, h.symm⟩
  | cons c u ih =>
    obtain ⟨t, rfl, k⟩ := latin_head (hu c (by simp)) h
    obtain ⟨t', rfl, k'⟩ := ih (fun c hc => hu c (by simp [hc])) k.symm
    exact ⟨t', rfl, k'⟩

theorem latin_nil {s : Str} (h : latin s = []) : s = [] := by
  cases s with
  | nil => rfl
  | cons c t =>
    rw [latin_cons] at h
    have : byteChars (encodeRune c) = [] := (List.append_eq_nil_iff.1 h).1
    have : encodeRune c = [] := by simpa [byteChars] using this
    exact absurd this (rune_some c)

theorem latin_quoted (s : Str) : bytesQuoted (latin s) = timeQuoted s := by
  unfold bytesQuoted timeQuoted
  congr 2
  induction s with
  | nil => rfl
  | cons c s ih =>
    by_cases hc : c.toNat < 0x80
    · rw [latin_low hc, List.flatMap_cons, List.flatMap_cons, ih]
      congr 1
      by_cases h : c = '"' ∨ c = '\\'
      · rw [if_pos h, if_pos h]
      · rw [if_neg h, if_neg h]
        by_cases k : c.toNat < 32 ∨ 127 < c.toNat
        · rw [if_pos k, if_pos k, encodeRune_core]
          unfold encodeRune
          rw [if_pos hc]
          simp
        · rw [if_neg k, if_neg k]
    · rw [latin_cons, List.flatMap_append, List.flatMap_cons, ih]
      congr 1
      have h : ¬ (c = '"' ∨ c = '\\') := by
        rintro (rfl | rfl)
        · exact hc (by decide)
        · exact hc (by decide)
      rw [if_neg h, if_pos (by omega), encodeRune_core]
      have hb := high_bytes (c := c) (by omega)
      generalize encodeRune c = l at hb
      induction l with
      | nil => rfl
      | cons x l ih =>
        have hx := hb x (by simp)
        have hn := byteChar_nat x
        show (Char.ofNat x.toNat :: byteChars l).flatMap _ = _
        rw [List.flatMap_cons, List.flatMap_cons, ih (fun y hy => hb y (by simp [hy]))]
        congr 1
        rw [if_neg (by
          rintro (k | k)
          · rw [k] at hn; have : ('"').toNat = 34 := rfl; omega
          · rw [k] at hn; have : ('\\').toNat = 92 := rfl; omega), if_pos (by omega), hn, UInt8.ofNat_toNat]

theorem latin_noDigit {s : Str} : NoDigitNext (latin s) ↔ NoDigitNext s := by
  constructor
  · intro h d r hd e
    subst e
    exact h d (latin r) hd (latin_low (digit_ascii hd) r)
  · intro h d r hd e
    obtain ⟨t, rfl, -⟩ := latin_head (digit_ascii hd) e
    exact h d t hd rfl

theorem digits_ascii {ds : List Nat} (h : ∀ d ∈ ds, d < 10) : ∀ c ∈ ds.map dig, c.toNat < 0x80 := by
  intro c hc
  obtain ⟨k, hk, rfl⟩ := List.mem_map.1 hc
  exact digit_ascii (h k hk)

theorem mark_ascii {c : Char} (h : c = '.' ∨ c = ',') : c.toNat < 0x80 := by rcases h with rfl | rfl <;> decide

theorem latin_fraction {t rest : Str} (h : FractionThen t rest) : FractionThen (latin t) (latin rest) := by
  cases h with
  | none rest h =>
    refine .none _ ?_
    intro c d u hc hd e
    obtain ⟨v, rfl, k⟩ := latin_head (mark_ascii hc) e
    obtain ⟨w, rfl, -⟩ := latin_head (digit_ascii hd) k.symm
    exact h c d w hc hd rfl
  | some c hc ds hd rest hr =>
    rw [latin_low (mark_ascii hc), latin_app (digits_ascii hd.2)]
    exact .some c hc ds hd _ (latin_noDigit.2 hr)

theorem fraction_latin {t r : Str} (h : FractionThen (latin t) r) : ∃ rest, r = latin rest ∧ FractionThen t rest := by
  generalize e : latin t = x at h
  cases h with
  | none rest h =>
    refine ⟨t, e.symm, .none _ ?_⟩
    rintro c d u hc hd rfl
    refine h c d (latin u) hc hd ?_
    rw [← e, latin_low (mark_ascii hc), latin_low (digit_ascii hd)]
  | some c hc ds hd rest hr =>
    obtain ⟨v, rfl, k⟩ := latin_head (mark_ascii hc) e
    obtain ⟨w, rfl, k'⟩ := latin_prefix (digits_ascii hd.2) k.symm
    subst k'
    exact ⟨w, rfl, .some c hc ds hd w (latin_noDigit.1 hr)⟩

theorem latin_takes {p : TimePart} {s rest : Str} {n : Nat} (hp : ∀ c, p = .sep c → c.toNat < 0x80) (h : Takes p s n rest) : Takes p (latin s) n (latin rest) := by
  cases h with
  | sep c rest => rw [latin_low (hp c rfl)]; exact .sep c _
  | year n h rest => rw [latin_app (pad4_ascii _)]; exact .year n h _
  | month n h1 h2 rest => rw [latin_app (pad2_ascii _)]; exact .month n h1 h2 _
  | day n h rest => rw [latin_app (pad2_ascii _)]; exact .day n h _
  | hour n h rest => rw [latin_app (pad2_ascii _)]; exact .hour n h _
  | hour1 n h rest hr => rw [latin_low (digit_ascii h)]; exact .hour1 n h _ (latin_noDigit.2 hr)
  | minute n h rest => rw [latin_app (pad2_ascii _)]; exact .minute n h _
  | second n h t rest ht => rw [latin_app (pad2_ascii _)]; exact .second n h _ _ (latin_fraction ht)

theorem takes_latin {p : TimePart} {s r : Str} {n : Nat} (hp : ∀ c, p = .sep c → c.toNat < 0x80) (h : Takes p (latin s) n r) : ∃ rest, Takes p s n rest := by
  generalize e : latin s = x at h
  cases h with
  | sep c rest => obtain ⟨t, rfl, -⟩ := latin_head (hp c rfl) e; exact ⟨_, .sep c t⟩
  | year n h rest => obtain ⟨t, rfl, -⟩ := latin_prefix (pad4_ascii _) e; exact ⟨_, .year n h t⟩
  | month n h1 h2 rest => obtain ⟨t, rfl, -⟩ := latin_prefix (pad2_ascii _) e; exact ⟨_, .month n h1 h2 t⟩
  | day n h rest => obtain ⟨t, rfl, -⟩ := latin_prefix (pad2_ascii _) e; exact ⟨_, .day n h t⟩
  | hour n h rest => obtain ⟨t, rfl, -⟩ := latin_prefix (pad2_ascii _) e; exact ⟨_, .hour n h t⟩
  | hour1 n h rest hr =>
    obtain ⟨t, rfl, k⟩ := latin_head (digit_ascii h) e
    subst k
    exact ⟨_, .hour1 n h t (latin_noDigit.1 hr)⟩
  | minute n h rest => obtain ⟨t, rfl, -⟩ := latin_prefix (pad2_ascii _) e; exact ⟨_, .minute n h t⟩
  | second n h t rest ht =>
    obtain ⟨u, rfl, k⟩ := latin_prefix (pad2_ascii _) e
    subst k
    obtain ⟨rest', -, k⟩ := fraction_latin ht
    exact ⟨_, .second n h u rest' k⟩

theorem latin_over {p : TimePart} {s w : Str} : Over p (latin s) w ↔ Over p s w := by
  constructor
  · intro h
    generalize e : latin s = x at h
    cases h with
    | month n h h2 rest => obtain ⟨t, rfl, -⟩ := latin_prefix (pad2_ascii _) e; exact .month n h h2 t
    | hour n h h2 rest => obtain ⟨t, rfl, -⟩ := latin_prefix (pad2_ascii _) e; exact .hour n h h2 t
    | minute n h h2 rest => obtain ⟨t, rfl, -⟩ := latin_prefix (pad2_ascii _) e; exact .minute n h h2 t
    | second n h h2 rest => obtain ⟨t, rfl, -⟩ := latin_prefix (pad2_ascii _) e; exact .second n h h2 t
  · intro h
    cases h with
    | month n h h2 rest => rw [latin_app (pad2_ascii _)]; exact .month n h h2 _
    | hour n h h2 rest => rw [latin_app (pad2_ascii _)]; exact .hour n h h2 _
    | minute n h h2 rest => rw [latin_app (pad2_ascii _)]; exact .minute n h h2 _
    | second n h h2 rest => rw [latin_app (pad2_ascii _)]; exact .second n h h2 _

theorem quoted_ascii {s : Str} (h : ∀ c ∈ s, c.toNat < 0x80) : bytesQuoted s = timeQuoted s := by
  have := latin_quoted s
  rw [show latin s = s from by have := latin_app h []; rwa [List.append_nil, show latin [] = [] from rfl, List.append_nil] at this] at this
  exact this

theorem sign_ascii {p : TimePart} (hp : ∀ c, p = .sep c → c.toNat < 0x80) : ∀ c ∈ p.sign, c.toNat < 0x80 := by
  cases p with
  | sep c => simpa [TimePart.sign] using hp c rfl
  | _ => decide

theorem latin_stops {layout : Str} (hl : ∀ c ∈ layout, c.toNat < 0x80) {ps : List TimePart} {s w : Str} (hp : ∀ c, .sep c ∈ ps → c.toNat < 0x80)
    (h : Stops layout ps s w) : BytesStop layout ps (latin s) w := by
  induction h with
  | here p ps s h1 h2 =>
    have hp' : ∀ c, p = .sep c → c.toNat < 0x80 := fun c e => hp c (by simp [e])
    rw [← quoted_ascii hl, ← latin_quoted s, ← quoted_ascii (sign_ascii hp')]
    refine .here p ps _ ?_ ?_
    · intro n rest k
      obtain ⟨r, k⟩ := takes_latin hp' k
      exact h1 n r k
    · intro w k
      exact h2 w (latin_over.1 k)
  | over p ps s w h => exact .over p ps _ w (latin_over.2 h)
  | extra s h =>
    rw [← latin_quoted s]
    exact .extra _ (fun k => h (latin_nil k))
  | later p ps s rest n h w k ih =>
    exact .later p ps _ _ n (latin_takes (fun c e => hp c (by simp [e])) h) w (ih (fun c hc => hp c (by simp [hc])))

theorem latin_takesAll {ps : List TimePart} {s : Str} {ns : List Nat} (hp : ∀ c, .sep c ∈ ps → c.toNat < 0x80) (h : TakesAll ps s ns) : TakesAll ps (latin s) ns := by
  induction h with
  | nil => exact .nil
  | cons p ps s rest n ns h k ih =>
    exact .cons p ps _ _ n ns (latin_takes (fun c e => hp c (by simp [e])) h) (ih (fun c hc => hp c (by simp [hc])))

theorem latin_says {s w : Str} (h : TimeSays s w) : TimeBytesSays (latin s) w := by
  cases h with
  | stops w h => rw [← latin_quoted s]; exact .stops w (latin_stops (by decide) dateTime_seps h)
  | day y m d ns h hd => rw [← latin_quoted s]; exact .day y m d ns (latin_takesAll dateTime_seps h) hd

theorem latin_self {s : Str} (h : ∀ c ∈ s, c.toNat < 0x80) : latin s = s := by
  have := latin_app h []
  rwa [List.append_nil, show latin [] = [] from rfl, List.append_nil] at this

theorem bare_low {c : Char} (h : bare c = true) : c.toNat < 0x80 := by
  unfold bare at h
  simp only [Bool.and_eq_true, decide_eq_true_eq] at h
  exact h.2

theorem four_ascii (n : Nat) : ∀ c ∈ fourText n, c.toNat < 0x80 := by
  unfold fourText
  by_cases h : n < 10000
  · rw [if_pos h]; exact pad4_ascii n
  · rw [if_neg h, ← natDigits_eq]
    exact fun c hc => bare_low (bare_all_digits (natDigits_all n) c hc)

theorem latin_instant (v : YMD) (s : Str) : instantText v (latin s) = latin (instantText v s) := by
  have hy : ∀ c ∈ (if v.year = -2 ^ 63 then c! "-9223372036854775808" else fourText v.year.natAbs), c.toNat < 0x80 := by
    by_cases h : v.year = -2 ^ 63
    · rw [if_pos h]; decide
    · rw [if_neg h]; exact four_ascii _
  have h2 (m : Int) : ∀ c ∈ twoText m, c.toNat < 0x80 := fun c hc => bare_low (bare_two m c hc)
  unfold instantText
  rw [latin_app hy, latin_low (by decide), latin_app (h2 _), latin_low (by decide), latin_app (h2 _), latin_low (by decide)]

/-- **C107**: of a time of day in UTF-8 it says what is said of the text. -/
theorem C107_utf8 {v : YMD} (h1 : -2 ^ 63 ≤ v.year) (h2 : v.year < 2 ^ 63) {b : Bytes} {s : Str} (h : IsUtf8 b s) :
    timeWithYMDBytes v b = (timeWithYMDM v s).bytes := by
  rw [isUtf8_iff] at h
  subst h
  rw [timeBytes_eq h1 h2, timeM_eq h1 h2, show byteChars (encode s) = latin s from rfl, latin_instant]
  cases hM : timeParseM layoutDateTime (instantText v s) with
  | ok m =>
    rw [latin_self (timeParse_ascii hM), (timeParseW_ok _ _ _).2 hM]
    rfl
  | fault e =>
    have he : e.err = .plain := by
      unfold timeParseM at hM
      cases k : parseToksM layoutDateTime {} (instantText v s) with
      | inr x => rw [k] at hM; injection hM with hM; rw [← hM]
      | inl G =>
        rw [k] at hM
        simp only at hM
        by_cases hd : G.day < 1 ∨ G.day > daysIn G.month G.year
        · rw [if_pos hd] at hM; injection hM with hM; rw [← hM]
        · rw [if_neg hd] at hM; cases hM
    obtain ⟨err, text⟩ := e
    simp only at he
    subst he
    have k := (instantBytes_iff _ _).2 (latin_says ((instant_says_iff _ _).1 hM))
    rw [k]
    rfl
  | panic =>
    exfalso
    unfold timeParseM at hM
    cases k : parseToksM layoutDateTime {} (instantText v s) with
    | inr x => rw [k] at hM; cases hM
    | inl G =>
      rw [k] at hM
      simp only at hM
      by_cases hd : G.day < 1 ∨ G.day > daysIn G.month G.year
      · rw [if_pos hd] at hM; cases hM
      · rw [if_neg hd] at hM; cases hM

example : timeWithYMDBytes ⟨1985, 4, 12⟩ (encode (c! "23:20:3é")) = (timeWithYMDM ⟨1985, 4, 12⟩ (c! "23:20:3é")).bytes :=
  C107_utf8 (by decide) (by decide) (encode_isUtf8 _)

/-- **C107**: likewise if the date is given as texts. -/
theorem C107_text_utf8 {a b c d : Bytes} {y m n t : Str} (ha : IsUtf8 a y) (hb : IsUtf8 b m) (hc : IsUtf8 c n) (hd : IsUtf8 d t) :
    timeWithYMDStringBytes a b c d = (timeWithYMDStringM y m n t).bytes := by
  unfold timeWithYMDStringBytes timeWithYMDStringM
  have e := (C104_ymd ha ha hb hc).2.2
  cases h : ymdFromStringsM y m n with
  | ok v =>
    rw [h] at e
    have k := ymdBytes_year ((C105_ymd a b c (.ok v)).1 e)
    rw [e]
    exact C107_utf8 k.1 k.2 hd
  | fault x => rw [h] at e; rw [e]; rfl
  | panic => rw [h] at e; rw [e]; rfl

example : timeWithYMDStringBytes (ascii (c! "-0044")) (ascii (c! "03")) [] (ascii (c! "5:00:00.5")) = (timeWithYMDStringM (c! "-0044") (c! "03") [] (c! "5:00:00.5")).bytes := by
  decide +kernel

end EDTF
