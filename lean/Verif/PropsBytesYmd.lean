/- C105: the helpers for years, months and days on all strings of bytes. -/
import Verif.PropsBytesDirect2
import Verif.SpecBytesYmd
import Verif.PropsMessageYmd
namespace EDTF
open Spec

/-! ### Numbers -/

theorem hex2_eq (x : UInt8) : hex2 x.toNat = hexByte x := by
  have h := toNat_lt x
  have : ∀ n : Fin 16, (c! "0123456789abcdef").getD n.val '?' = (c! "0123456789abcdef").getD n.val '0' := by decide
  unfold hex2 hexByte
  simp only
  rw [this ⟨x.toNat / 16, by omega⟩, this ⟨x.toNat % 16, by omega⟩]

theorem decode_no {x : UInt8} {b : Bytes} (h : decodeRune x b = none) (c : Char) (p q : Bytes) (e : x :: b = p ++ q) : ¬ IsUtf8 p [c] := by
  intro k
  have : (x :: b).map UInt8.toNat = utf8 c ++ q.map UInt8.toNat := by
    rw [e, List.map_append, k]; simp
  obtain ⟨b0, t, e', k'⟩ := decode_complete c this
  cases e'
  rw [h] at k'
  cases k'

theorem decode_yes {c : Char} {p b : Bytes} (h : IsUtf8 p [c]) : ∃ b0 t, p ++ b = b0 :: t ∧ decodeRune b0 t = some (c, b) :=
  decode_complete c (by rw [List.map_append, h]; simp)

theorem escapedBytes_sound {b : Bytes} {q : Str} (h : EscapedBytes b q) : ∀ n, b.length ≤ n → quoteRunes n b = q := by
  induction h with
  | nil => intro n _; cases n <;> rfl
  | char c p b u v hp hu h ih =>
    intro n hn
    obtain ⟨b0, t, e, k⟩ := decode_yes (b := b) hp
    rw [e] at hn ⊢
    cases n with
    | zero => simp at hn
    | succ n =>
      have hl := (decode_sound k).2
      simp only [List.length_cons] at hn
      unfold quoteRunes
      simp only [k]
      rw [ih n (by omega), (escaped_iff c u).1 hu]
  | byte x b v hx h ih =>
    intro n hn
    cases n with
    | zero => simp at hn
    | succ n =>
      simp only [List.length_cons] at hn
      have : decodeRune x b = none := by
        cases k : decodeRune x b with
        | none => rfl
        | some p => exact absurd (encode_isUtf8 [p.1]) (hx p.1 _ p.2 (decode_split k))
      unfold quoteRunes
      simp only [this]
      rw [ih n (by omega), hex2_eq]

theorem escapedBytes_total : ∀ (n : Nat) (b : Bytes), b.length ≤ n → ∃ q, EscapedBytes b q := by
  intro n
  induction n with
  | zero =>
    intro b h
    cases b with
    | nil => exact ⟨[], .nil⟩
    | cons x b => simp at h
  | succ n ih =>
    intro b h
    cases b with
    | nil => exact ⟨[], .nil⟩
    | cons x b =>
      simp only [List.length_cons] at h
      cases k : decodeRune x b with
      | none =>
        obtain ⟨v, hv⟩ := ih b (by omega)
        exact ⟨_, .byte x b v (decode_no k) hv⟩
      | some p =>
        obtain ⟨c, r⟩ := p
        obtain ⟨v, hv⟩ := ih r (by have := (decode_sound k).2; omega)
        rw [decode_split k]
        exact ⟨_, .char c _ r _ v (encode_isUtf8 _) ((escaped_iff c _).2 rfl) hv⟩

theorem escapedBytes_iff (b : Bytes) (q : Str) : EscapedBytes b q ↔ q = quoteRunes b.length b := by
  constructor
  · intro h; exact (escapedBytes_sound h _ (Nat.le_refl _)).symm
  · rintro rfl
    obtain ⟨q, h⟩ := escapedBytes_total _ b (Nat.le_refl _)
    rw [escapedBytes_sound h _ (Nat.le_refl _)]
    exact h

theorem dig_low {ds : List Nat} (h : ∀ d ∈ ds, d < 10) : ∀ c ∈ ds.map dig, c.toNat < 0x80 ∧ c ≠ runeError := by
  have : ∀ n : Fin 10, (dig n.val).toNat < 0x80 ∧ dig n.val ≠ runeError := by decide
  intro c hc
  obtain ⟨d, hd, rfl⟩ := List.mem_map.1 hc
  exact this ⟨d, h d hd⟩

theorem sign_low {sg : Str} (h : sg = [] ∨ sg = c! "-" ∨ sg = c! "+") : ∀ c ∈ sg, c.toNat < 0x80 ∧ c ≠ runeError := by
  rcases h with rfl | rfl | rfl <;> decide

theorem longBytes_iff (b : Bytes) : LongBytes b ↔ LongNumber (runes b) := by
  constructor
  · rintro ⟨sg, ds, rest, hs, hd, hv, rfl⟩
    have low : ∀ c ∈ sg ++ ds.map dig, c.toNat < 0x80 := by
      intro c hc
      rcases List.mem_append.1 hc with h | h
      · exact (sign_low hs c h).1
      · exact (dig_low hd c h).1
    refine ⟨sg, ds, runes rest, hs, hd, hv, ?_⟩
    rw [← encode_ascii low, runes_append, List.append_assoc]
  · rintro ⟨sg, ds, rest, hs, hd, hv, e⟩
    have low : ∀ c ∈ sg ++ ds.map dig, c.toNat < 0x80 ∧ c ≠ runeError := by
      intro c hc
      rcases List.mem_append.1 hc with h | h
      · exact sign_low hs c h
      · exact dig_low hd c h
    obtain ⟨w, rfl, -⟩ := runes_prefix (sg ++ ds.map dig) (b := b) (r := rest) (fun k => (low _ k).2 rfl) (by rw [e, List.append_assoc])
    exact ⟨sg, ds, w, hs, hd, hv, by rw [encode_ascii fun c hc => (low c hc).1]⟩

theorem decimal_runes {b : Bytes} {v : Int} (h : Decimal (runes b) v) : IsUtf8 b (runes b) := by
  refine isUtf8_iff.2 (runes_whole ?_ rfl)
  obtain ⟨ds, -, hd, ⟨e | e, -⟩ | ⟨e, -⟩⟩ := h
  · rw [e]; exact fun k => (dig_low hd _ k).2 rfl
  · rw [e]
    intro k
    rcases List.mem_cons.1 k with k | k
    · exact absurd k (by decide)
    · exact (dig_low hd _ k).2 rfl
  · rw [e]
    intro k
    rcases List.mem_cons.1 k with k | k
    · exact absurd k (by decide)
    · exact (dig_low hd _ k).2 rfl

theorem utf8_runes {b : Bytes} {s : Str} (h : IsUtf8 b s) : runes b = s := by rw [isUtf8_iff.1 h, runes_encode]

theorem noIntBytesReason_iff (b : Bytes) (r : Str) : NoIntBytesReason b r ↔ NoIntReason (runes b) r := by
  constructor
  · intro h
    cases h with
    | long h => exact .long ((longBytes_iff b).1 h)
    | range s v hs h hv => rw [utf8_runes hs]; exact .range v h hv
    | other h1 h2 => exact .other (fun v hv => h1 _ v (decimal_runes hv) hv) (fun k => h2 ((longBytes_iff b).2 k))
  · intro h
    cases h with
    | long h => exact .long ((longBytes_iff b).2 h)
    | range v h hv => exact .range _ v (decimal_runes h) h hv
    | other h1 h2 => exact .other (fun s v hs hv => h1 v (by rw [utf8_runes hs]; exact hv)) (fun k => h2 ((longBytes_iff b).1 k))

theorem atoi_int {b : Bytes} {v : Int} : atoiBytes b = .ok v ↔ IntBytes b v := by
  constructor
  · intro h
    rcases utf8_dec b with ⟨s, rfl⟩ | k
    · rw [atoi_utf8] at h
      refine ⟨s, encode_isUtf8 s, atoiM_int.1 ?_⟩
      cases hx : atoiM s with
      | ok w => rw [hx] at h; injection h with h; rw [h]
      | fault e => rw [hx] at h; cases h
      | panic => rw [hx] at h; cases h
    · obtain ⟨t, ht⟩ := atoi_broken k
      rw [ht] at h; cases h
  · rintro ⟨s, hs, h⟩
    rw [isUtf8_iff.1 hs, atoi_utf8, atoiM_int.2 h]
    rfl

theorem int_runes {b : Bytes} {v : Int} : IntBytes b v ↔ IntText (runes b) v := by
  constructor
  · rintro ⟨s, hs, h⟩; rw [utf8_runes hs]; exact h
  · intro h; exact ⟨_, decimal_runes h.1, h⟩

theorem atoi_no {b t : Bytes} : atoiBytes b = .fault t ↔ NoIntBytes b t := by
  have none_iff : atoi (runes b) = none ↔ ∀ v, ¬ IntText (runes b) v := by
    constructor
    · intro h v hv; rw [(atoi_iff _ v).2 hv] at h; cases h
    · intro h
      cases hh : atoi (runes b) with
      | none => rfl
      | some v => exact absurd ((atoi_iff _ v).1 hh) (h v)
  have text : ∀ r, c! "strconv.Atoi: parsing " ++ quoteBytes b ++ c! ": " ++ r = c! "strconv.Atoi: parsing \"" ++ quoteRunes b.length b ++ c! "\": " ++ r := by
    intro r; unfold quoteBytes; simp
  constructor
  · intro h
    unfold atoiBytes at h
    cases hh : atoi (runes b) with
    | some v => rw [hh] at h; cases h
    | none =>
      rw [hh] at h
      injection h with h
      rw [text] at h
      exact ⟨_, _, (escapedBytes_iff b _).2 rfl, (noIntBytesReason_iff b _).2 ((noIntReason_iff _ _).2 ⟨none_iff.1 hh, rfl⟩), isUtf8_iff.2 h.symm⟩
  · rintro ⟨q, r, hq, hr, ht⟩
    obtain ⟨h1, rfl⟩ := (noIntReason_iff _ _).1 ((noIntBytesReason_iff b r).1 hr)
    rw [(escapedBytes_iff b q).1 hq, ← text] at ht
    unfold atoiBytes
    rw [none_iff.2 h1, isUtf8_iff.1 ht]

theorem atoi_cases (b : Bytes) : (∃ v, IntBytes b v ∧ atoiBytes b = .ok v) ∨ ∃ t, NoIntBytes b t ∧ atoiBytes b = .fault t := by
  cases h : atoi (runes b) with
  | some v =>
    have : atoiBytes b = .ok v := by unfold atoiBytes; rw [h]
    exact .inl ⟨v, atoi_int.1 this, this⟩
  | none =>
    have : ∃ t, atoiBytes b = .fault t := by unfold atoiBytes; rw [h]; exact ⟨_, rfl⟩
    obtain ⟨t, ht⟩ := this
    exact .inr ⟨t, atoi_no.1 ht, ht⟩

/-- **C105**: strconv.Atoi, with which the helpers read numbers, on all strings of bytes. -/
theorem C105_number (b : Bytes) : (∀ v, atoiBytes b = .ok v ↔ IntBytes b v) ∧ (∀ t, atoiBytes b = .fault t ↔ NoIntBytes b t) ∧
    ((∃ v, IntBytes b v) ∨ ∃ t, NoIntBytes b t) :=
  ⟨fun _ => atoi_int, fun _ => atoi_no, (atoi_cases b).imp (fun ⟨v, h, _⟩ => ⟨v, h⟩) fun ⟨t, h, _⟩ => ⟨t, h⟩⟩

/-- A number of more than 64 bits is noticed before a byte that is no digit. -/
example : atoiBytes (ascii (c! "99999999999999999999") ++ [0xC3, 0x28]) =
    .fault (ascii (c! "strconv.Atoi: parsing \"99999999999999999999\\xc3(\": value out of range")) := by decide +kernel
example : NoIntBytes (ascii (c! "12") ++ [0xC3, 0x28]) (ascii (c! "strconv.Atoi: parsing \"12\\xc3(\": invalid syntax")) :=
  atoi_no.1 (by decide +kernel)

/-! ### Pieces -/

theorem dashBytes_sound {b : Bytes} {ps : List Bytes} (h : DashBytes b ps) : splitByte 0x2D b = ps := by
  induction h with
  | last p h => exact splitByte_none h
  | more p q ps h k ih => rw [splitByte_some _ h, ih]

theorem dashBytes_total : ∀ (n : Nat) (b : Bytes), b.length ≤ n → ∃ ps, DashBytes b ps := by
  intro n
  induction n with
  | zero =>
    intro b h
    cases b with
    | nil => exact ⟨_, .last [] (by simp)⟩
    | cons x b => simp at h
  | succ n ih =>
    intro b h
    by_cases hm : (0x2D : UInt8) ∈ b
    · obtain ⟨p, q, rfl, hp⟩ := split_once hm
      obtain ⟨ps, k⟩ := ih q (by simp only [List.length_append, List.length_cons] at h; omega)
      exact ⟨_, .more p q ps hp k⟩
    · exact ⟨_, .last b hm⟩

theorem dashBytes_split (b : Bytes) : DashBytes b (splitByte 0x2D b) := by
  obtain ⟨ps, h⟩ := dashBytes_total _ b (Nat.le_refl _)
  rw [dashBytes_sound h]
  exact h

/-! ### Days of a month -/

/-- The two numbers and the days of the month. -/
def daysOf (a b : Bytes) : Said Int := atoiBytes a >>= fun y => atoiBytes b >>= fun m => (daysInMonthM y m).bytes

theorem said_ok {α β : Type} {a : α} {f : α → Said β} : (Said.ok a >>= f) = f a := rfl
theorem said_fault {α β : Type} {t : Bytes} {f : α → Said β} : (Said.fault t >>= f) = .fault t := rfl

theorem daysOf_sound {a b : Bytes} {r : Said Int} (h : DaysBytes a b r) : daysOf a b = r := by
  unfold daysOf
  cases h with
  | year t h => rw [atoi_no.2 h]; rfl
  | month y hy t h => rw [atoi_int.2 hy, said_ok, atoi_no.2 h]; rfl
  | days y m hy hm w h t ht =>
    rw [atoi_int.2 hy, said_ok, atoi_int.2 hm, said_ok]
    obtain ⟨s, -, hs⟩ := hy
    obtain ⟨e, he, hw⟩ := (C85_days hs.2.1 hs.2.2 w).2 h
    rw [he, isUtf8_iff.1 ht, ← hw]
    rfl
  | ok y m n hy hm h =>
    rw [atoi_int.2 hy, said_ok, atoi_int.2 hm, said_ok]
    obtain ⟨s, -, hs⟩ := hy
    have := (C69_days hs.2.1 hs.2.2 _).2 h
    rw [← daysInMonthM_forget] at this
    cases hx : daysInMonthM y m with
    | ok k => rw [hx] at this; injection this with this; rw [this]; rfl
    | fault e => rw [hx] at this; cases this
    | panic => rw [hx] at this; cases this

theorem daysOf_total (a b : Bytes) : DaysBytes a b (daysOf a b) := by
  unfold daysOf
  rcases atoi_cases a with ⟨y, hy, ey⟩ | ⟨t, ht, et⟩
  · rw [ey, said_ok]
    rcases atoi_cases b with ⟨m, hm, em⟩ | ⟨t, ht, et⟩
    · rw [em, said_ok]
      have hs := int_runes.1 hy
      cases hx : daysInMonthM y m with
      | ok k => exact .ok y m k hy hm ((C69_days hs.2.1 hs.2.2 _).1 (by rw [← daysInMonthM_forget, hx]; rfl))
      | fault e => exact .days y m hy hm e.text ((C85_days hs.2.1 hs.2.2 _).1 ⟨e, hx, rfl⟩) _ (encode_isUtf8 _)
      | panic =>
        have := (C69_days (m := m) hs.2.1 hs.2.2 .panic).1 (by rw [← daysInMonthM_forget, hx]; rfl)
        cases this
    · rw [et]; exact .month y hy t ht
  · rw [et]; exact .year t ht

theorem daysBytes_eq (b : Bytes) : daysInMonthWithStringBytes b = match splitByte 0x2D b with
    | [_, p, q] => daysOf (0x2D :: p) q
    | [p, q] => daysOf p q
    | _ => .fault (ascii (c! "Invalid YYYYMM string")) := by
  unfold daysInMonthWithStringBytes
  rw [← encode_ascii (s := c! "Invalid YYYYMM string") (by decide)]
  rfl

/-- **C105**: DaysInMonthWithString on all strings of bytes. -/
theorem C105_days (b : Bytes) (r : Said Int) : daysInMonthWithStringBytes b = r ↔ DaysBytesText b r := by
  rw [daysBytes_eq]
  constructor
  · rintro rfl
    have hp := dashBytes_split b
    split
    · next x p q e => exact .three x p q (e ▸ hp) _ (daysOf_total _ _)
    · next p q e => exact .two p q (e ▸ hp) _ (daysOf_total _ _)
    · next n3 n2 =>
      refine .error _ hp ?_ ?_
      · intro h
        match e : splitByte 0x2D b with
        | [p, q] => exact n2 _ _ e
        | [] | [_] | _ :: _ :: _ :: _ => rw [e] at h; simp at h
      · intro h
        match e : splitByte 0x2D b with
        | [x, p, q] => exact n3 _ _ _ e
        | [] | [_] | [_, _] | _ :: _ :: _ :: _ :: _ => rw [e] at h; simp at h
  · intro h
    cases h with
    | two p q h r hr => rw [dashBytes_sound h]; exact daysOf_sound hr
    | three x p q h r hr => rw [dashBytes_sound h]; exact daysOf_sound hr
    | error ps h h2 h3 =>
      rw [dashBytes_sound h]
      match ps, h2, h3 with
      | [], _, _ | [_], _, _ => rfl
      | [_, _], h2, _ => exact absurd rfl h2
      | [_, _, _], _, h3 => exact absurd rfl h3
      | _ :: _ :: _ :: _ :: _, _, _ => rfl

/-- Bytes that are no text before a year with a sign are dropped. -/
example : DaysBytesText (0xFF :: ascii (c! "-0004-02")) (.ok 29) := (C105_days _ _).1 (by decide +kernel)
example : DaysBytesText (ascii (c! "1985-") ++ [0xE2, 0x82]) (.fault (ascii (c! "strconv.Atoi: parsing \"\\xe2\\x82\": invalid syntax"))) :=
  (C105_days _ _).1 (by decide +kernel)

/-! ### Year, month and day -/

theorem part_fault {d t : Bytes} : atoiOrZeroBytes d = .fault t ↔ d ≠ [] ∧ NoIntBytes d t := by
  unfold atoiOrZeroBytes
  split
  · next h => rw [atoi_no]; exact ⟨fun k => ⟨h, k⟩, fun k => k.2⟩
  · next h => exact ⟨(fun k => by cases k), fun k => absurd k.1 h⟩

theorem part_int {m : Bytes} {v : Int} (h : IntBytes m v) : atoiOrZeroBytes m = .ok v := by
  unfold atoiOrZeroBytes
  split
  · exact atoi_int.2 h
  · next k =>
    have : m = [] := Classical.byContradiction k
    subst this
    obtain ⟨s, hs, hi⟩ := h
    have : s = [] := encode_empty.1 (isUtf8_iff.1 hs).symm
    subst this
    obtain ⟨ds, h0, -, ⟨e | e, -⟩ | ⟨e, -⟩⟩ := hi.1
    · exact absurd (List.map_eq_nil_iff.1 e.symm) h0
    · cases e
    · cases e

theorem part_cases (m : Bytes) : (m = [] ∧ atoiOrZeroBytes m = .ok 0) ∨ (∃ v, IntBytes m v ∧ atoiOrZeroBytes m = .ok v) ∨
    ∃ t, m ≠ [] ∧ NoIntBytes m t ∧ atoiOrZeroBytes m = .fault t := by
  by_cases h : m = []
  · subst h; exact .inl ⟨rfl, rfl⟩
  · rcases atoi_cases m with ⟨v, hv, -⟩ | ⟨t, ht, -⟩
    · exact .inr (.inl ⟨v, hv, part_int hv⟩)
    · exact .inr (.inr ⟨t, h, ht, part_fault.2 ⟨h, ht⟩⟩)

theorem int_ne {y : Bytes} {v : Int} (h : IntBytes y v) : y ≠ [] := by
  rintro rfl
  have e := atoi_int.2 h
  have : (∃ t, atoiBytes [] = .fault t) := ⟨_, rfl⟩
  obtain ⟨t, ht⟩ := this
  rw [ht] at e
  cases e

theorem no_int_empty : NoIntBytes [] (ascii (c! "strconv.Atoi: parsing \"\": invalid syntax")) := atoi_no.1 (by decide +kernel)

/-- The steps of the function up to the three numbers. -/
theorem strings_steps {y m d : Bytes} : ∃ K : Int → Int → Int → Said YMD, ymdFromStringsBytes y m d =
    if y = [] then .fault (ascii (c! "Missing year")) else if m = [] ∧ d ≠ [] then .fault (ascii (c! "Missing month"))
    else atoiBytes y >>= fun a => atoiOrZeroBytes m >>= fun b => atoiOrZeroBytes d >>= fun c => K a b c := by
  unfold ymdFromStringsBytes
  rw [encode_ascii (s := c! "Missing year") (by decide), encode_ascii (s := c! "Missing month") (by decide)]
  exact ⟨_, rfl⟩

theorem ymdBytes_sound {y m d : Bytes} {r : Said YMD} (h : YmdBytes y m d r) : ymdFromStringsBytes y m d = r := by
  cases h with
  | ok s t u hy hm hd v h =>
    rw [isUtf8_iff.1 hy, isUtf8_iff.1 hm, isUtf8_iff.1 hd, strings_utf8]
    have := (C69_ymd s t u _).2 h
    rw [← ymdFromStringsM_forget] at this
    cases hx : ymdFromStringsM s t u with
    | ok k => rw [hx] at this; injection this with this; rw [this]; rfl
    | fault e => rw [hx] at this; cases this
    | panic => rw [hx] at this; cases this
  | says s t u hy hm hd w h x hx =>
    rw [isUtf8_iff.1 hy, isUtf8_iff.1 hm, isUtf8_iff.1 hd, strings_utf8]
    obtain ⟨e, he, hw⟩ := (C85_ymd s t u w).2 h
    rw [he, isUtf8_iff.1 hx, ← hw]
    rfl
  | broken h x hx =>
    obtain ⟨K, e⟩ := strings_steps (y := y) (m := m) (d := d)
    rw [e]
    cases hx with
    | noYear h => rw [if_pos h]
    | noMonth h hm hd => rw [if_neg h, if_pos ⟨hm, hd⟩]
    | year h hm t ht => rw [if_neg h, if_neg (fun k => k.2 (hm k.1)), atoi_no.2 ht]; rfl
    | month v hy h t ht => rw [if_neg (int_ne hy), if_neg (fun k => h k.1), atoi_int.2 hy, said_ok, part_fault.2 ⟨h, ht⟩]; rfl
    | day v w hy hm t ht =>
      have hd : d ≠ [] := by
        rintro rfl
        obtain ⟨s, hs, -⟩ := hy
        obtain ⟨t, ht, -⟩ := hm
        exact h ⟨s, t, [], hs, ht, isUtf8_iff.2 rfl⟩
      rw [if_neg (int_ne hy), if_neg (fun k => int_ne hm k.1), atoi_int.2 hy, said_ok, part_int hm, said_ok, part_fault.2 ⟨hd, ht⟩]
      rfl

theorem ymdBytes_total (y m d : Bytes) : YmdBytes y m d (ymdFromStringsBytes y m d) := by
  by_cases hu : ∃ s t u, IsUtf8 y s ∧ IsUtf8 m t ∧ IsUtf8 d u
  · obtain ⟨s, t, u, hs, ht, hu⟩ := hu
    have e : ymdFromStringsBytes y m d = (ymdFromStringsM s t u).bytes := by
      rw [isUtf8_iff.1 hs, isUtf8_iff.1 ht, isUtf8_iff.1 hu, strings_utf8]
    rw [e]
    have f := ymdFromStringsM_forget s t u
    cases hx : ymdFromStringsM s t u with
    | ok v => rw [hx] at f; exact .ok s t u hs ht hu v ((C69_ymd s t u _).1 f.symm)
    | fault e => exact .says s t u hs ht hu e.text ((C85_ymd s t u _).1 ⟨e, hx, rfl⟩) _ (encode_isUtf8 _)
    | panic =>
      rw [hx] at f
      have := (C69_ymd s t u .panic).1 f.symm
      cases this
  · have key : ∃ x, BrokenYmd y m d x := by
      by_cases h1 : y = []
      · exact ⟨_, .noYear h1⟩
      by_cases h2 : m = [] ∧ d ≠ []
      · exact ⟨_, .noMonth h1 h2.1 h2.2⟩
      have h2' : m = [] → d = [] := fun k => Classical.byContradiction fun k' => h2 ⟨k, k'⟩
      rcases atoi_cases y with ⟨v, hv, -⟩ | ⟨t, ht, -⟩
      · rcases part_cases m with ⟨hm, -⟩ | ⟨w, hw, -⟩ | ⟨t, hm, ht, -⟩
        · obtain ⟨s, hs, -⟩ := hv
          rw [hm, h2' hm] at hu
          exact absurd ⟨s, [], [], hs, isUtf8_iff.2 rfl, isUtf8_iff.2 rfl⟩ hu
        · rcases atoi_cases d with ⟨z, hz, -⟩ | ⟨t, ht, -⟩
          · obtain ⟨s, hs, -⟩ := hv
            obtain ⟨t, ht, -⟩ := hw
            obtain ⟨u, hu', -⟩ := hz
            exact absurd ⟨s, t, u, hs, ht, hu'⟩ hu
          · exact ⟨_, .day v w hv hw t ht⟩
        · exact ⟨_, .month v hv hm t ht⟩
      · exact ⟨_, .year h1 h2' t ht⟩
    obtain ⟨x, hx⟩ := key
    have := YmdBytes.broken hu x hx
    rw [ymdBytes_sound this]
    exact this

/-- **C105**: YMDFromStrings on all strings of bytes. -/
theorem C105_ymd (y m d : Bytes) (r : Said YMD) : ymdFromStringsBytes y m d = r ↔ YmdBytes y m d r :=
  ⟨fun h => h ▸ ymdBytes_total y m d, ymdBytes_sound⟩

/-- **C105**: YMDFromString on all strings of bytes. -/
theorem C105_ymd_text (b : Bytes) (r : Said YMD) : ymdFromStringBytes b = r ↔ YmdBytesText b r := by
  unfold ymdFromStringBytes
  rw [encode_ascii (s := c! "Invalid YMD string") (by decide)]
  constructor
  · rintro rfl
    have hp := dashBytes_split b
    match e : splitByte 0x2D b with
    | [] => exact absurd e (splitByte_ne _ _)
    | [p] => exact .one p (e ▸ hp) _ (ymdBytes_total _ _ _)
    | [p, q] => exact .two p q (e ▸ hp) _ (ymdBytes_total _ _ _)
    | [p, q, s] => exact .three p q s (e ▸ hp) _ (ymdBytes_total _ _ _)
    | [x, p, q, s] => exact .four x p q s (e ▸ hp) _ (ymdBytes_total _ _ _)
    | x :: p :: q :: s :: t :: l => exact .error _ (e ▸ hp) (by simp)
  · intro h
    cases h with
    | one p h r hr => rw [dashBytes_sound h]; exact ymdBytes_sound hr
    | two p q h r hr => rw [dashBytes_sound h]; exact ymdBytes_sound hr
    | three p q s h r hr => rw [dashBytes_sound h]; exact ymdBytes_sound hr
    | four x p q s h r hr => rw [dashBytes_sound h]; exact ymdBytes_sound hr
    | error ps h hl =>
      rw [dashBytes_sound h]
      match ps, hl with
      | _ :: _ :: _ :: _ :: _ :: _, _ => rfl

/-- The day is reported only when year and month are numbers. -/
example : YmdBytesText (ascii (c! "1985-04-") ++ [0x80]) (.fault (ascii (c! "strconv.Atoi: parsing \"\\x80\": invalid syntax"))) :=
  (C105_ymd_text _ _).1 (by decide +kernel)
example : YmdBytesText (ascii (c! "1985-x-") ++ [0x80]) (.fault (ascii (c! "strconv.Atoi: parsing \"x\": invalid syntax"))) :=
  (C105_ymd_text _ _).1 (by decide +kernel)
example : YmdBytes (ascii (c! "1985")) [] [0x80] (.fault (ascii (c! "Missing month"))) := (C105_ymd _ _ _ _).1 (by decide +kernel)

end EDTF
