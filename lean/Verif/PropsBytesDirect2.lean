/- C104, continued: spans and the helpers for years, months and days. -/
import Verif.PropsBytesDirect
namespace EDTF
open Spec

/-! ### Spans -/

theorem ymd_inside {s : Str} {m : Nat → Str} (h : Rx.YMD.submatch s = some m) : ∀ c ∈ s, c ∈ notationChars := by
  unfold Re.submatch Rx.YMD Rx.anch at h
  rw [search_bos] at h
  obtain ⟨st', h, -⟩ := Option.map_eq_some_iff.1 h
  obtain ⟨h1, h2⟩ := (ymd_run_eq _ rfl _).1 (List.mem_of_mem_head? h)
  obtain ⟨w, e, l, -⟩ := run_sound _ _ _ h1
  simp only [h2, List.append_nil] at e
  subst e
  exact lang_inside (r := ymdBody) (by decide +kernel) l

theorem no_ymd {b : Bytes} (h : ¬ ∃ s, IsUtf8 b s) : Rx.YMD.submatch (runes b) = none := by
  cases hh : Rx.YMD.submatch (runes b) with
  | none => rfl
  | some m => exact absurd (ymd_inside hh _ (broken_mem h)) runeError_foreign

theorem range_utf8 (s : Str) : stringRangeFromYMDBytes (encode s) = (stringRangeFromYMDM s).bytes := by
  unfold stringRangeFromYMDBytes
  rw [runes_encode]
  cases h : Rx.YMD.submatch s with
  | some m => rfl
  | none =>
    unfold stringRangeFromYMDM
    rw [h, invalidBytes_encode]
    rfl

theorem date_steps {s : Str} {x : Told StringRange} {F G : StringRange → Told YMD} {T : StringRange → YMD → YMD → Told (Int × Int × Int × Int)}
    {K : StringRange → YMD → YMD → Int × Int × Int × Int → DateSpan} :
    (x.bytes >>= fun r => (F r).bytes >>= fun a => (G r).bytes >>= fun z => (T r a z).bytes >>= fun q => (Said.ok (K r a z q) : Said DateSpan)) =
      (x >>= fun r => F r >>= fun a => G r >>= fun z => T r a z >>= fun q => (Told.ok (K r a z q) : Told DateSpan)).bytes := by
  rw [bytes_bind' (f := fun r => F r >>= fun a => G r >>= fun z => T r a z >>= fun q => Told.ok (K r a z q))]
  intro r
  rw [bytes_bind' (f := fun a => G r >>= fun z => T r a z >>= fun q => Told.ok (K r a z q))]
  intro a
  rw [bytes_bind' (f := fun z => T r a z >>= fun q => Told.ok (K r a z q))]
  intro z
  rw [bytes_bind' (f := fun q => Told.ok (K r a z q))]
  intro q
  rfl

theorem dateSpan_utf8 (s : Str) : dateSpanFromYMDBytes (encode s) = (dateSpanFromYMDM s).bytes := by
  unfold dateSpanFromYMDBytes dateSpanFromYMDM
  rw [range_utf8, runes_encode]
  exact date_steps (s := s)

theorem half_utf8 (s : Str) : halfSpanBytes (encode s) = (halfSpanM s).bytes := by
  unfold halfSpanBytes halfSpanM
  simp only [encode_eq, runes_encode, dateSpan_utf8, apply_ite Told.bytes]
  rfl

theorem halves_steps {x y : Told DateSpan} {J : DateSpan → DateSpan → Told DateSpan} :
    (x.bytes >>= fun l => y.bytes >>= fun r => (J l r).bytes) = (x >>= fun l => y >>= fun r => J l r).bytes := by
  rw [bytes_bind' (f := fun l => y >>= fun r => J l r)]
  intro l
  rw [bytes_bind' (f := fun r => J l r)]
  intro r
  rfl

theorem span_utf8 (s : Str) : dateSpanFromEDTFBytes (encode s) = (dateSpanFromEDTFM s).bytes := by
  have e := split_encode (c := '/') (by decide) _ s (Nat.le_refl _)
  rw [show UInt8.ofNat '/'.toNat = 0x2F from rfl] at e
  unfold dateSpanFromEDTFBytes dateSpanFromEDTFM
  rw [e]
  match splitChar '/' s with
  | [] => simp only [List.map_nil]; rw [invalidBytes_encode]; rfl
  | [l] => exact dateSpan_utf8 l
  | [l, r] =>
    show (halfSpanBytes (encode l) >>= fun left => halfSpanBytes (encode r) >>= fun right => (Told.lift (joinHalves left right)).bytes) = _
    rw [half_utf8, half_utf8]
    exact halves_steps
  | l :: r :: t :: ts => simp only [List.map_cons]; rw [invalidBytes_encode]; rfl

theorem dateSpan_broken {b : Bytes} (h : ¬ ∃ s, IsUtf8 b s) : dateSpanFromYMDBytes b = .fault (invalidBytesText (c! "date") b) := by
  unfold dateSpanFromYMDBytes stringRangeFromYMDBytes
  rw [no_ymd h, invalidBytes_text (by decide)]
  rfl

theorem half_broken {b : Bytes} (h : ¬ ∃ s, IsUtf8 b s) : halfSpanBytes b = .fault (invalidBytesText (c! "date") b) := by
  unfold halfSpanBytes
  rw [if_neg (fun e => h ⟨UNKNOWN, isUtf8_iff.2 e⟩), if_neg (fun e => h ⟨OPEN, isUtf8_iff.2 e⟩), dateSpan_broken h]

theorem span_no_panic (s : Str) : dateSpanFromEDTFM s ≠ .panic := by
  intro h
  have g := dateSpanFromEDTFM_forget s
  rw [h] at g
  have k := (span_outcome dayCount_unixDay s s 0 []).returns
  rw [← g] at k
  exact k rfl

theorem bytes_slash {l : Bytes} {s : Str} (hs : IsUtf8 l s) (hn : '/' ∉ s) : 0x2F ∉ l := by
  intro k
  apply hn
  have := (mem_runes (c := '/') (by decide) (b := l)).2 k
  rwa [isUtf8_iff.1 hs, runes_encode] at this

theorem two_bytes {l r : Bytes} (hl : 0x2F ∉ l) (hr : 0x2F ∉ r) : dateSpanFromEDTFBytes (l ++ 0x2F :: r) =
    (halfSpanBytes l >>= fun left => halfSpanBytes r >>= fun right => (Told.lift (joinHalves left right)).bytes) := by
  unfold dateSpanFromEDTFBytes
  rw [splitByte_some _ hl, splitByte_none hr]

theorem encode_slash (s t : Str) : encode s ++ 0x2F :: encode t = encode (s ++ '/' :: t) := by
  rw [encode_append, encode_one '/' t]; rfl

theorem right_broken {l r : Bytes} {s : Str} (hs : IsUtf8 l s) (h : ¬ ∃ s, IsUtf8 (l ++ 0x2F :: r) s) : ¬ ∃ s, IsUtf8 r s := by
  rintro ⟨t, ht⟩
  exact h ⟨s ++ '/' :: t, isUtf8_iff.2 (by rw [isUtf8_iff.1 hs, isUtf8_iff.1 ht, encode_slash])⟩

/-- **C104**: on UTF-8 the functions for spans and ranges say what they say of the characters. -/
theorem C104_span {b : Bytes} {s : Str} (h : IsUtf8 b s) :
    dateSpanFromEDTFBytes b = (dateSpanFromEDTFM s).bytes ∧ stringRangeFromYMDBytes b = (stringRangeFromYMDM s).bytes := by
  rw [isUtf8_iff.1 h]
  exact ⟨span_utf8 s, range_utf8 s⟩

example : dateSpanFromEDTFBytes (encode (c! "1985/é")) = .fault (encode (c! "Invalid EDTF string 'é' (date)")) := by
  rw [(C104_span (encode_isUtf8 _)).1]; decide +kernel

theorem brokenSpan_said {b t : Bytes} (hb : ¬ ∃ s, IsUtf8 b s) (h : BrokenSpan b t) : dateSpanFromEDTFBytes b = .fault t := by
  cases h with
  | one h =>
    unfold dateSpanFromEDTFBytes
    rw [splitByte_none h]
    exact dateSpan_broken hb
  | left hl hr h =>
    rw [two_bytes hl hr, half_broken h]
    rfl
  | @failed l r t s w hr hs hn ho h ht =>
    rw [two_bytes (bytes_slash hs hn) hr, isUtf8_iff.1 hs, half_utf8]
    obtain ⟨e, he, hw⟩ := (C84_span s w).2 h
    rw [spanM_noSlash hn] at he
    have : halfSpanM s = .fault e := by
      unfold halfSpanM
      rw [if_neg (show s ≠ UNKNOWN from ho.1), if_neg (show s ≠ OPEN from ho.2), he]
    rw [this, isUtf8_iff.1 ht, ← hw]
    rfl
  | @right l r s hr hs hn h =>
    rw [two_bytes (bytes_slash hs hn) hr, isUtf8_iff.1 hs, half_utf8, half_broken (right_broken hs hb)]
    have : ∃ d, halfSpanM s = .ok d := by
      unfold halfSpanM
      by_cases h1 : s = UNKNOWN
      · rw [if_pos h1]; exact ⟨_, rfl⟩
      by_cases h2 : s = OPEN
      · rw [if_neg h1, if_pos h2]; exact ⟨_, rfl⟩
      rw [if_neg h1, if_neg h2, ← spanM_noSlash hn]
      rcases h with h | h | h
      · exact absurd h h1
      · exact absurd h h2
      · cases hx : dateSpanFromEDTFM s with
        | ok d => exact ⟨d, rfl⟩
        | panic => exact absurd hx (span_no_panic s)
        | fault e => exact absurd ((C84_span s e.text).1 ⟨e, hx, rfl⟩) (h _)
    obtain ⟨d, hd⟩ := this
    rw [hd]
    rfl
  | @many a b c =>
    have key : ∀ x : Bytes, ∃ p q r ps, splitByte 0x2F (a ++ 0x2F :: (b ++ 0x2F :: c)) = p :: q :: r :: ps := by
      intro _
      obtain ⟨p, q, e, hp⟩ := split_once (a := (0x2F : UInt8)) (l := a ++ 0x2F :: (b ++ 0x2F :: c)) (by simp)
      have hq : (0x2F : UInt8) ∈ q := by
        have hc := congrArg (List.count (0x2F : UInt8)) e
        simp only [List.count_append, List.count_cons_self, List.count_eq_zero.2 hp] at hc
        exact List.count_pos_iff.1 (by omega)
      obtain ⟨p', q', e', hp'⟩ := split_once hq
      rw [e, splitByte_some _ hp, e', splitByte_some _ hp']
      cases hs : splitByte 0x2F q' with
      | nil => exact absurd hs (splitByte_ne _ _)
      | cons r ps => exact ⟨p, p', r, ps, rfl⟩
    obtain ⟨p, q, r, ps, e⟩ := key []
    unfold dateSpanFromEDTFBytes
    rw [e, invalidBytes_text (by decide)]

theorem brokenSpan_of {b : Bytes} (hb : ¬ ∃ s, IsUtf8 b s) : ∃ t, BrokenSpan b t := by
  by_cases h : (0x2F : UInt8) ∈ b
  · obtain ⟨l, r, rfl, hl⟩ := split_once h
    by_cases h' : (0x2F : UInt8) ∈ r
    · obtain ⟨r, c, rfl, -⟩ := split_once h'
      exact ⟨_, .many⟩
    · by_cases hu : ∃ s, IsUtf8 l s
      · obtain ⟨s, hs⟩ := hu
        have hn : '/' ∉ s := by
          intro k
          apply hl
          rw [← runes_encode s, ← isUtf8_iff.1 hs] at k
          exact (mem_runes (c := '/') (by decide)).1 k
        by_cases h1 : s = []
        · exact ⟨_, .right h' hs hn (.inl h1)⟩
        by_cases h2 : s = c! ".."
        · exact ⟨_, .right h' hs hn (.inr (.inl h2))⟩
        by_cases h3 : ∃ w, SpanErrorText s w
        · obtain ⟨w, hw⟩ := h3
          exact ⟨encode w, .failed h' hs hn ⟨h1, h2⟩ hw (encode_isUtf8 w)⟩
        · exact ⟨_, .right h' hs hn (.inr (.inr fun w k => h3 ⟨w, k⟩))⟩
      · exact ⟨_, .left hl h' hu⟩
  · exact ⟨_, .one h⟩

/-- **C104**: of other bytes there is no span, and the error is the one of `BrokenSpan`. -/
theorem C104_broken_span {b : Bytes} (hb : ¬ ∃ s, IsUtf8 b s) (t : Bytes) :
    (dateSpanFromEDTFBytes b = .fault t ↔ BrokenSpan b t) ∧ (∃ t, dateSpanFromEDTFBytes b = .fault t) ∧
    stringRangeFromYMDBytes b = .fault (invalidBytesText (c! "date") b) := by
  obtain ⟨t', h'⟩ := brokenSpan_of hb
  have e := brokenSpan_said hb h'
  refine ⟨⟨fun h => ?_, brokenSpan_said hb⟩, ⟨t', e⟩, ?_⟩
  · rw [e] at h; injection h with h; rw [← h]; exact h'
  · unfold stringRangeFromYMDBytes
    rw [no_ymd hb, invalidBytes_text (by decide)]

example : dateSpanFromEDTFBytes (ascii (c! "1985-04") ++ [0xFF]) =
    .fault (ascii (c! "Invalid EDTF string '1985-04") ++ [0xFF] ++ ascii (c! "' (date)")) :=
  (C104_broken_span broken_april _).1.2 (.one (by decide))

/-! ### Years, months and days -/

theorem quoteRunes_encode : ∀ (s : Str) (n : Nat), (encode s).length ≤ n → quoteRunes n (encode s) = s.flatMap escapeGo := by
  intro s
  induction s with
  | nil => intro n _; cases n <;> rfl
  | cons c s ih =>
    intro n h
    have hb : (encode (c :: s)).map UInt8.toNat = utf8 c ++ (encode s).map UInt8.toNat := by
      rw [encode_one, List.map_append, encode_isUtf8 [c]]; simp
    obtain ⟨b0, t, hbt, hdec⟩ := decode_complete c hb
    rw [hbt] at h ⊢
    cases n with
    | zero => simp at h
    | succ n =>
      have hl := (decode_sound hdec).2
      simp only [List.length_cons] at h
      unfold quoteRunes
      simp only [hdec]
      rw [ih n (by omega), List.flatMap_cons]

theorem atoi_utf8 (s : Str) : atoiBytes (encode s) = (atoiM s).bytes := by
  unfold atoiBytes atoiM
  rw [runes_encode]
  cases atoi s with
  | some v => rfl
  | none =>
    show Said.fault (encode _) = Said.fault (encode _)
    unfold quoteBytes
    rw [quoteRunes_encode s _ (Nat.le_refl _)]
    rfl

theorem encode_empty {s : Str} : encode s = [] ↔ s = [] := by rw [show ([] : Bytes) = encode [] from rfl, encode_eq]

theorem atoiOrZero_utf8 (s : Str) : atoiOrZeroBytes (encode s) = (atoiOrZeroM s).bytes := by
  unfold atoiOrZeroBytes atoiOrZeroM
  simp only [ne_eq, encode_empty, atoi_utf8, apply_ite Told.bytes]
  rfl

theorem strings_utf8 (y m d : Str) : ymdFromStringsBytes (encode y) (encode m) (encode d) = (ymdFromStringsM y m d).bytes := by
  unfold ymdFromStringsBytes ymdFromStringsM
  simp only [ne_eq, encode_empty, atoi_utf8, atoiOrZero_utf8]
  by_cases h1 : y = []
  · simp only [h1, if_true]; rfl
  by_cases h2 : m = [] ∧ ¬ d = []
  · simp only [h1, h2, if_false]; rfl
  rw [if_neg h1, if_neg h2, if_neg h1, if_neg h2]
  apply bytes_bind'
  intro yyyy
  apply bytes_bind'
  intro mm
  apply bytes_bind'
  intro dd
  rw [apply_ite Told.bytes]
  refine ite_congr rfl (fun _ => rfl) (fun _ => ?_)
  rw [apply_ite Told.bytes]
  refine ite_congr rfl (fun _ => rfl) (fun _ => ?_)
  rw [apply_ite Told.bytes]
  refine ite_congr rfl (fun _ => rfl) (fun _ => ?_)
  apply bytes_bind'
  intro days
  rw [apply_ite Told.bytes]
  exact ite_congr rfl (fun _ => rfl) (fun _ => rfl)

theorem dash_encode (b : Str) : 0x2D :: encode b = encode ('-' :: b) := by rw [encode_one]; rfl

/-- **C104**: on UTF-8 the helpers say what they say of the characters. -/
theorem C104_ymd {b y m d : Bytes} {s t u v : Str} (h : IsUtf8 b s) (h1 : IsUtf8 y t) (h2 : IsUtf8 m u) (h3 : IsUtf8 d v) :
    ymdFromStringBytes b = (ymdFromStringM s).bytes ∧ daysInMonthWithStringBytes b = (daysInMonthWithStringM s).bytes ∧
    ymdFromStringsBytes y m d = (ymdFromStringsM t u v).bytes := by
  rw [isUtf8_iff.1 h, isUtf8_iff.1 h1, isUtf8_iff.1 h2, isUtf8_iff.1 h3]
  have e := split_encode (c := '-') (by decide) _ s (Nat.le_refl _)
  rw [show UInt8.ofNat '-'.toNat = 0x2D from rfl] at e
  refine ⟨?_, ?_, strings_utf8 t u v⟩
  · unfold ymdFromStringBytes ymdFromStringM
    rw [e]
    match splitChar '-' s with
    | [] => rfl
    | [a] => exact strings_utf8 a [] []
    | [a, b] => exact strings_utf8 a b []
    | [a, b, c] => exact strings_utf8 a b c
    | [a, b, c, d] =>
      show ymdFromStringsBytes (0x2D :: encode b) (encode c) (encode d) = _
      rw [dash_encode]; exact strings_utf8 _ c d
    | _ :: _ :: _ :: _ :: _ :: _ => rfl
  · have go : ∀ p q : Str, (atoiBytes (encode p) >>= fun yyyy => atoiBytes (encode q) >>= fun mm => (daysInMonthM yyyy mm).bytes) =
        (atoiM p >>= fun yyyy => atoiM q >>= fun mm => daysInMonthM yyyy mm).bytes := by
      intro p q
      rw [atoi_utf8, atoi_utf8]
      apply bytes_bind'
      intro yyyy
      apply bytes_bind'
      intro mm
      rfl
    unfold daysInMonthWithStringBytes daysInMonthWithStringM
    rw [e]
    match splitChar '-' s with
    | [] => rfl
    | [a] => rfl
    | [a, b] => exact go a b
    | [a, b, c] => 
      show (atoiBytes (0x2D :: encode b) >>= fun yyyy => atoiBytes (encode c) >>= fun mm => (daysInMonthM yyyy mm).bytes) = _
      rw [dash_encode]; exact go _ c
    | _ :: _ :: _ :: _ :: _ => rfl

example : ymdFromStringBytes (encode (c! "é")) = .fault (encode (c! "strconv.Atoi: parsing \"é\": invalid syntax")) := by
  rw [(C104_ymd (encode_isUtf8 (c! "é")) (encode_isUtf8 []) (encode_isUtf8 []) (encode_isUtf8 [])).1]; decide +kernel

/-! What they return for other bytes. -/

theorem atoi_foreign {s : Str} (h : runeError ∈ s) : atoi s = none := by
  have hd : ∀ ds : Str, runeError ∈ ds → ds.all isDig = false := fun ds k => List.all_eq_false.2 ⟨_, k, by decide⟩
  unfold atoi parseInt
  dsimp only
  split
  · next ds =>
    have k : runeError ∈ ds := by
      rcases List.mem_cons.1 h with k | k
      · exact absurd k (by decide)
      · exact k
    simp [hd ds k]
  · next ds =>
    have k : runeError ∈ ds := by
      rcases List.mem_cons.1 h with k | k
      · exact absurd k (by decide)
      · exact k
    simp [hd ds k]
  · simp [hd s h]

theorem utf8_dec (b : Bytes) : (∃ s, b = encode s) ∨ ¬ ∃ s, IsUtf8 b s := by
  rcases utf8_or_broken b.length b (Nat.le_refl _) with h | h
  · exact .inl h
  · exact .inr (not_utf8.2 h)

theorem atoi_broken {b : Bytes} (h : ¬ ∃ s, IsUtf8 b s) : ∃ t, atoiBytes b = .fault t := by
  unfold atoiBytes
  rw [atoi_foreign (broken_mem h)]
  exact ⟨_, rfl⟩

theorem broken_ne {b : Bytes} (h : ¬ ∃ s, IsUtf8 b s) : b ≠ [] := by
  rintro rfl
  exact h ⟨[], isUtf8_iff.2 rfl⟩

theorem atoiOrZero_broken {b : Bytes} (h : ¬ ∃ s, IsUtf8 b s) : ∃ t, atoiOrZeroBytes b = .fault t := by
  unfold atoiOrZeroBytes
  rw [if_pos (broken_ne h)]
  exact atoi_broken h

theorem said_bind_ok {α β : Type} {x : Said α} {f : α → Said β} {v : β} (h : (x >>= f) = .ok v) : ∃ a, x = .ok a ∧ f a = .ok v := by
  cases x with
  | ok a => exact ⟨a, rfl, h⟩
  | fault t => cases h
  | panic => cases h

theorem strings_ok {y m d : Bytes} {v : YMD} (h : ymdFromStringsBytes y m d = .ok v) : ∃ s t u, y = encode s ∧ m = encode t ∧ d = encode u := by
  unfold ymdFromStringsBytes at h
  split at h
  · cases h
  split at h
  · cases h
  obtain ⟨a, ha, h⟩ := said_bind_ok h
  obtain ⟨c, hc, h⟩ := said_bind_ok h
  obtain ⟨e, he, -⟩ := said_bind_ok h
  rcases utf8_dec y with ⟨s, hs⟩ | k
  · rcases utf8_dec m with ⟨t, ht⟩ | k
    · rcases utf8_dec d with ⟨u, hu⟩ | k
      · exact ⟨s, t, u, hs, ht, hu⟩
      · obtain ⟨_, q⟩ := atoiOrZero_broken k; rw [q] at he; cases he
    · obtain ⟨_, q⟩ := atoiOrZero_broken k; rw [q] at hc; cases hc
  · obtain ⟨_, q⟩ := atoi_broken k; rw [q] at ha; cases ha

theorem splitByte_inv {sep : UInt8} {b p : Bytes} {ps : List Bytes} (h : splitByte sep b = p :: ps) :
    sep ∉ p ∧ ((ps = [] ∧ b = p) ∨ ∃ q, b = p ++ sep :: q ∧ splitByte sep q = ps) := by
  by_cases hm : sep ∈ b
  · obtain ⟨p', q, rfl, hp⟩ := split_once hm
    rw [splitByte_some _ hp] at h
    injection h with h1 h2
    subst h1
    exact ⟨hp, .inr ⟨q, rfl, h2⟩⟩
  · rw [splitByte_none hm] at h
    injection h with h1 h2
    subst h1
    exact ⟨hm, .inl ⟨h2.symm, rfl⟩⟩

theorem split_tail {sep : UInt8} {b p q : Bytes} {ps : List Bytes} (h : splitByte sep b = p :: q :: ps) :
    sep ∉ p ∧ ∃ r, b = p ++ sep :: r ∧ splitByte sep r = q :: ps := by
  obtain ⟨hp, ⟨e, -⟩ | ⟨r, e, k⟩⟩ := splitByte_inv h
  · cases e
  · exact ⟨hp, r, e, k⟩

theorem split_last {sep : UInt8} {b p : Bytes} (h : splitByte sep b = [p]) : sep ∉ p ∧ b = p := by
  obtain ⟨hp, ⟨-, e⟩ | ⟨r, e, k⟩⟩ := splitByte_inv h
  · exact ⟨hp, e⟩
  · exact absurd k (splitByte_ne _ _)

theorem encode_dash (s t : Str) : encode s ++ 0x2D :: encode t = encode (s ++ '-' :: t) := by
  rw [encode_append, encode_one '-' t]; rfl

/-- **C104**: of other bytes there is a day only if they are any bytes and a day with a sign before
it, since what stands before the first of three hyphens is not looked at. -/
theorem C104_ymd_broken {b : Bytes} (hb : ¬ ∃ s, IsUtf8 b s) (v : YMD) : ymdFromStringBytes b = .ok v ↔
    ∃ (x r : Bytes) (s t u : Str), b = x ++ 0x2D :: r ∧ 0x2D ∉ x ∧ '-' ∉ s ∧ '-' ∉ t ∧ '-' ∉ u ∧ IsUtf8 r (s ++ '-' :: (t ++ '-' :: u)) ∧
      ymdFromStringM ('-' :: (s ++ '-' :: (t ++ '-' :: u))) = .ok v := by
  have hd : ∀ s : Str, (0x2D : UInt8) ∉ encode s ↔ '-' ∉ s := by
    intro s
    have := mem_runes (c := '-') (by decide) (b := encode s)
    rw [runes_encode] at this
    rw [this]; rfl
  have four : ∀ s t u : Str, '-' ∉ s → '-' ∉ t → '-' ∉ u → ymdFromStringM ('-' :: (s ++ '-' :: (t ++ '-' :: u))) = ymdFromStringsM ('-' :: s) t u := by
    intro s t u h1 h2 h3
    unfold ymdFromStringM
    rw [show '-' :: (s ++ '-' :: (t ++ '-' :: u)) = [] ++ '-' :: (s ++ '-' :: (t ++ '-' :: u)) from rfl, splitAt_some _ (by simp), splitAt_some _ h1,
      splitAt_some _ h2, splitAt_none h3]
  constructor
  · intro h
    unfold ymdFromStringBytes at h
    split at h
    · next a p q r e =>
      obtain ⟨s, t, u, hs, rfl, rfl⟩ := strings_ok h
      obtain ⟨ha, r1, rfl, k1⟩ := split_tail e
      obtain ⟨hp, r2, rfl, k2⟩ := split_tail k1
      obtain ⟨hq, r3, rfl, k3⟩ := split_tail k2
      obtain ⟨hr, rfl⟩ := split_last k3
      have hp' : ∃ s', p = encode s' := by
        rcases utf8_dec p with k | k
        · exact k
        · exfalso
          obtain ⟨u', hu'⟩ := not_utf8.1 k
          apply broken_not (b := 0x2D :: p) (u := '-' :: u') ?_ s hs
          obtain ⟨v', w', e1, e2, e3, e4⟩ := hu'
          refine ⟨0x2D :: v', w', by rw [e1]; rfl, ?_, e3, e4⟩
          rw [isUtf8_iff] at e2 ⊢
          rw [e2, dash_encode]
      obtain ⟨s', rfl⟩ := hp'
      rw [dash_encode, strings_utf8] at h
      refine ⟨a, _, s', t, u, rfl, ha, (hd s').1 hp, (hd t).1 hq, (hd u).1 hr, ?_, ?_⟩
      · rw [isUtf8_iff, encode_dash, encode_dash]
      · rw [four s' t u ((hd s').1 hp) ((hd t).1 hq) ((hd u).1 hr)]
        cases hx : ymdFromStringsM ('-' :: s') t u with
        | ok w => rw [hx] at h; injection h with h; rw [h]
        | fault e => rw [hx] at h; cases h
        | panic => rw [hx] at h; cases h
    · next a p q e =>
      exfalso
      obtain ⟨s, t, u, rfl, rfl, rfl⟩ := strings_ok h
      obtain ⟨-, r1, rfl, k1⟩ := split_tail e
      obtain ⟨-, r2, rfl, k2⟩ := split_tail k1
      obtain ⟨-, rfl⟩ := split_last k2
      exact hb ⟨_, isUtf8_iff.2 (by rw [encode_dash, encode_dash])⟩
    · next a p e =>
      exfalso
      obtain ⟨s, t, u, rfl, rfl, -⟩ := strings_ok h
      obtain ⟨-, r1, rfl, k1⟩ := split_tail e
      obtain ⟨-, rfl⟩ := split_last k1
      exact hb ⟨_, isUtf8_iff.2 (by rw [encode_dash])⟩
    · next a e =>
      exfalso
      obtain ⟨s, t, u, rfl, -, -⟩ := strings_ok h
      obtain ⟨-, rfl⟩ := split_last e
      exact hb ⟨_, encode_isUtf8 s⟩
    · cases h
  · rintro ⟨x, r, s, t, u, rfl, hx, hs, ht, hu, hr, h⟩
    rw [four s t u hs ht hu] at h
    unfold ymdFromStringBytes
    rw [splitByte_some _ hx, isUtf8_iff.1 hr, ← encode_dash, ← encode_dash, splitByte_some _ ((hd s).2 hs), splitByte_some _ ((hd t).2 ht),
      splitByte_none ((hd u).2 hu)]
    show ymdFromStringsBytes (0x2D :: encode s) (encode t) (encode u) = _
    rw [dash_encode, strings_utf8, h]
    rfl

example : ymdFromStringBytes (0xFF :: ascii (c! "-1985-04-12")) = .ok ⟨-1985, 4, 12⟩ := by decide +kernel
example : ∃ (x r : Bytes) (s t u : Str), (0xFF :: ascii (c! "-1985-04-12")) = x ++ 0x2D :: r ∧ 0x2D ∉ x ∧ '-' ∉ s ∧ '-' ∉ t ∧ '-' ∉ u ∧
    IsUtf8 r (s ++ '-' :: (t ++ '-' :: u)) ∧ ymdFromStringM ('-' :: (s ++ '-' :: (t ++ '-' :: u))) = .ok ⟨-1985, 4, 12⟩ :=
  ⟨[0xFF], ascii (c! "1985-04-12"), c! "1985", c! "04", c! "12", rfl, by decide, by decide, by decide, by decide, by unfold IsUtf8; decide, by decide +kernel⟩
/-- A byte that begins no character is written with two digits. -/
example : ymdFromStringBytes [0xFF] = .fault (ascii (c! "strconv.Atoi: parsing \"\\xff\": invalid syntax")) := by decide +kernel

end EDTF
