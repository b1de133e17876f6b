/- The languages of the concrete patterns, in terms of written dates. -/
import Verif.LemmasDate0
import Verif.Parser
namespace EDTF
open Spec

/-! ### Digits -/

theorem four_digits {a b c d : Char} (ha : isDig a = true) (hb : isDig b = true) (hc : isDig c = true)
    (hd : isDig d = true) : ∃ n, n < 10000 ∧ [a, b, c, d] = pad4 n := by
  obtain ⟨i, hi, rfl⟩ := (isDig_iff a).1 ha
  obtain ⟨j, hj, rfl⟩ := (isDig_iff b).1 hb
  obtain ⟨k, hk, rfl⟩ := (isDig_iff c).1 hc
  obtain ⟨l, hl, rfl⟩ := (isDig_iff d).1 hd
  refine ⟨i * 1000 + j * 100 + k * 10 + l, by omega, ?_⟩
  unfold pad4
  congr
  · omega
  · omega
  · omega
  · omega

theorem two_digits {a b : Char} (ha : isDig a = true) (hb : isDig b = true) : ∃ n, n < 100 ∧ [a, b] = pad2 n := by
  obtain ⟨i, hi, rfl⟩ := (isDig_iff a).1 ha
  obtain ⟨j, hj, rfl⟩ := (isDig_iff b).1 hb
  refine ⟨i * 10 + j, by omega, ?_⟩
  unfold pad2
  congr
  · omega
  · omega

theorem four_digits' {w : Str} (h : w.all isDig = true) (hl : w.length = 4) : ∃ n, n < 10000 ∧ w = pad4 n := by
  match w, hl with
  | [a, b, c, d], _ =>
    simp only [List.all_cons, List.all_nil, Bool.and_true, Bool.and_eq_true] at h
    exact four_digits h.1 h.2.1 h.2.2.1 h.2.2.2

theorem two_digits' {w : Str} (h : w.all isDig = true) (hl : w.length = 2) : ∃ n, n < 100 ∧ w = pad2 n := by
  match w, hl with
  | [a, b], _ =>
    simp only [List.all_cons, List.all_nil, Bool.and_true, Bool.and_eq_true] at h
    exact two_digits h.1 h.2

/-- All classes of `r` lie within the digits (without case folding). -/
def Re.digitsOnly : Re → Bool
  | .cls f rs => !f && rs.all (fun p => Nat.ble 48 p.1.toNat && Nat.ble p.2.toNat 57)
  | .cat a b => a.digitsOnly && b.digitsOnly
  | .alt a b => a.digitsOnly && b.digitsOnly
  | .opt a => a.digitsOnly
  | .star a => a.digitsOnly
  | .plus a => a.digitsOnly
  | .grp _ a => a.digitsOnly
  | _ => true

theorem star_all {P : Str → Prop} {q : Char → Bool} (h : ∀ w, P w → w.all q = true) {w : Str} (hw : Star P w) :
    w.all q = true := by
  have := star_forall (Q := fun c => q c = true) (fun w hp c hc => List.all_eq_true.1 (h w hp) c hc) hw
  exact List.all_eq_true.2 this

theorem lang_digitsOnly {r : Re} (hr : r.digitsOnly = true) {w : Str} (h : Lang r w) : w.all isDig = true := by
  induction r generalizing w with
  | eps => simp only [Lang] at h; subst h; rfl
  | bos => simp only [Lang] at h; subst h; rfl
  | eos => simp only [Lang] at h; subst h; rfl
  | cls f rs =>
    obtain ⟨c, rfl, hc⟩ := lang_cls.1 h
    simp only [Re.digitsOnly, Bool.and_eq_true, Bool.not_eq_true'] at hr
    obtain ⟨rfl, hr⟩ := hr
    simp only [clsHas, Bool.false_eq_true, if_false, List.any_eq_true] at hc
    obtain ⟨p, hp, hi⟩ := hc
    have := List.all_eq_true.1 hr p hp
    simp only [inR, Bool.and_eq_true, Nat.ble_eq] at hi this
    simp only [List.all_cons, List.all_nil, Bool.and_true, isDig, Bool.and_eq_true, Nat.ble_eq]
    omega
  | cat a b iha ihb =>
    simp only [Re.digitsOnly, Bool.and_eq_true] at hr
    obtain ⟨u, v, rfl, hu, hv⟩ := h
    rw [List.all_append, iha hr.1 hu, ihb hr.2 hv]; rfl
  | alt a b iha ihb =>
    simp only [Re.digitsOnly, Bool.and_eq_true] at hr
    rcases h with h | h
    · exact iha hr.1 h
    · exact ihb hr.2 h
  | opt a iha =>
    rcases h with h | h
    · subst h; rfl
    · exact iha hr h
  | star a iha => exact star_all (fun w hw => iha hr hw) h
  | plus a iha =>
    obtain ⟨u, v, rfl, hu, hv⟩ := h
    rw [List.all_append, iha hr hu, star_all (fun w hw => iha hr hw) hv]; rfl
  | grp i a iha => exact iha hr h

/-- A two-digit pattern, by its table. -/
theorem lang_table2 {r : Re} (P : Nat → Prop) [DecidablePred P] (hf : r.free = true) (hd : r.digitsOnly = true)
    (hl : ∃ ls, r.lens = some ls ∧ ∀ n ∈ ls, n = 2)
    (ht : ∀ n, n < 100 → (Rx.anch r).matchString (pad2 n) = decide (P n)) {w : Str} :
    Lang r w ↔ ∃ n, n < 100 ∧ P n ∧ w = pad2 n := by
  constructor
  · intro h
    obtain ⟨ls, e, hls⟩ := hl
    obtain ⟨n, hn, rfl⟩ := two_digits' (lang_digitsOnly hd h) (hls _ (lang_lens r ls e w h))
    refine ⟨n, hn, ?_, rfl⟩
    have := (matchString_anch r hf _).2 h
    rw [ht n hn] at this
    simpa using this
  · rintro ⟨n, hn, hp, rfl⟩
    exact (matchString_anch r hf _).1 (by rw [ht n hn]; simpa using hp)

theorem lang_month {w : Str} : Lang Rx.month w ↔ ∃ m, m < 100 ∧ (1 ≤ m ∧ m ≤ 12) ∧ w = pad2 m :=
  lang_table2 (fun m => 1 ≤ m ∧ m ≤ 12) (by decide) (by decide) ⟨[2, 2], by decide, by decide⟩ (by decide +kernel)

theorem lang_day {w : Str} : Lang Rx.day w ↔ ∃ m, m < 100 ∧ (1 ≤ m ∧ m ≤ 31) ∧ w = pad2 m :=
  lang_table2 (fun m => 1 ≤ m ∧ m ≤ 31) (by decide) (by decide) ⟨[2, 2, 2], by decide, by decide⟩ (by decide +kernel)

theorem lang_year4' {w : Str} : Lang Rx.year4 w ↔ ∃ neg n, n < 10000 ∧ w = yearStr neg n := by
  rw [lang_year4]
  constructor
  · rintro ⟨neg, a, b, c, d, rfl, ha, hb, hc, hd⟩
    obtain ⟨n, hn, e⟩ := four_digits ha hb hc hd
    exact ⟨neg, n, hn, by rw [yearStr, e]⟩
  · rintro ⟨neg, n, hn, rfl⟩
    exact ⟨neg, _, _, _, _, rfl, by simp, by simp, by simp, by simp⟩

theorem date0_text (x : Date0) : x.text = yearStr x.neg x.year ++
    (match x.tail with
     | .none => []
     | .month m => '-' :: pad2 m
     | .day m d => '-' :: (pad2 m ++ '-' :: pad2 d)) := by
  obtain ⟨neg, n, t⟩ := x
  cases t <;> rfl

/-- PATTERN_DATE: year, optional month, optional day; the day up to 31. -/
theorem lang_date {g : Nat} {w : Str} : Lang (Rx.date g) w ↔
    ∃ x : Date0, x.year < 10000 ∧ Date0.shapeOk x ∧ w = x.text := by
  constructor
  · rintro ⟨u, v, rfl, hu, hv⟩
    obtain ⟨neg, n, hn, rfl⟩ := lang_year4'.1 hu
    rcases hv with rfl | ⟨u1, v1, rfl, h1, u2, v2, rfl, h2, h3⟩
    · exact ⟨⟨neg, n, .none⟩, hn, trivial, by simp [date0_text]⟩
    · have h1 := lang_lit.1 h1; subst h1
      obtain ⟨m, -, hm, rfl⟩ := lang_month.1 h2
      rcases h3 with rfl | ⟨u3, v3, rfl, h4, h5⟩
      · exact ⟨⟨neg, n, .month m⟩, hn, hm, by simp [date0_text]⟩
      · have h4 := lang_lit.1 h4; subst h4
        obtain ⟨d, -, hd, rfl⟩ := lang_day.1 h5
        exact ⟨⟨neg, n, .day m d⟩, hn, ⟨hm.1, hm.2, hd.1, hd.2⟩, by simp [date0_text]⟩
  · rintro ⟨⟨neg, n, t⟩, hn, hs, rfl⟩
    rw [date0_text]
    refine ⟨_, _, rfl, lang_year4'.2 ⟨neg, n, hn, rfl⟩, ?_⟩
    cases t with
    | none => exact Or.inl rfl
    | month m =>
      exact Or.inr ⟨['-'], pad2 m, rfl, lang_lit.2 rfl, pad2 m, [], by simp,
        lang_month.2 ⟨m, by have := hs.2; omega, hs, rfl⟩, Or.inl rfl⟩
    | day m d =>
      obtain ⟨m1, m2, d1, d2⟩ := hs
      exact Or.inr ⟨['-'], _, rfl, lang_lit.2 rfl, pad2 m, _, rfl, lang_month.2 ⟨m, by omega, ⟨m1, m2⟩, rfl⟩,
        Or.inr ⟨['-'], pad2 d, rfl, lang_lit.2 rfl, lang_day.2 ⟨d, by omega, ⟨d1, d2⟩, rfl⟩⟩⟩

theorem lang_date_text {g : Nat} {x : Date0} (h : x.ok) : Lang (Rx.date g) x.text :=
  lang_date.2 ⟨x, h.1, Date0.ok_shape h, rfl⟩

/-- The characters of a written date. -/
theorem date0_chars {x : Date0} {c : Char} (h : c ∈ x.text) : isDig c = true ∨ c = '-' := by
  have p4 : ∀ n c, c ∈ pad4 n → isDig c = true := fun n c hc => List.all_eq_true.1 (pad4_all n) c hc
  have p2 : ∀ n c, c ∈ pad2 n → isDig c = true := fun n c hc => List.all_eq_true.1 (pad2_all n) c hc
  have py : ∀ neg n c, c ∈ yearStr neg n → isDig c = true ∨ c = '-' := by
    intro neg n c hc
    cases neg
    · exact Or.inl (p4 n c hc)
    · rcases List.mem_cons.1 hc with rfl | hc
      · exact Or.inr rfl
      · exact Or.inl (p4 n c hc)
  rw [date0_text] at h
  rcases List.mem_append.1 h with h | h
  · exact py _ _ _ h
  · obtain ⟨neg, n, t⟩ := x
    cases t with
    | none => cases h
    | month m =>
      rcases List.mem_cons.1 h with rfl | h
      · exact Or.inr rfl
      · exact Or.inl (p2 m c h)
    | day m d =>
      rcases List.mem_cons.1 h with rfl | h
      · exact Or.inr rfl
      · rcases List.mem_append.1 h with h | h
        · exact Or.inl (p2 m c h)
        · rcases List.mem_cons.1 h with rfl | h
          · exact Or.inr rfl
          · exact Or.inl (p2 d c h)

theorem date0_not_mem (x : Date0) {c : Char} (h1 : isDig c = false) (h2 : c ≠ '-') : c ∉ x.text := by
  intro h
  rcases date0_chars h with h | h
  · rw [h1] at h; cases h
  · exact h2 h

theorem date0_ne_nil (x : Date0) : x.text ≠ [] := by
  rw [date0_text]; simp [yearStr_ne_nil]

theorem date0_length (x : Date0) : 4 ≤ x.text.length := by
  rw [date0_text, List.length_append]
  have : 4 ≤ (yearStr x.neg x.year).length := by cases x.neg <;> simp [yearStr, sgn]
  omega

theorem date0_ne_open (x : Date0) : x.text ≠ OPEN := by
  intro h
  have := date0_length x
  rw [h] at this; simp [OPEN] at this

theorem halfSpan_date0 (x : Date0) : halfSpan x.text = dateSpanFromYMD x.text := by
  unfold halfSpan
  rw [if_neg (show x.text ≠ UNKNOWN from date0_ne_nil x), if_neg (date0_ne_open x)]

/-! ### Level 0 dispatch -/

theorem isDate_iff {s : Str} : L0.isDate s = true ↔ ∃ x : Date0, x.year < 10000 ∧ Date0.shapeOk x ∧ s = x.text := by
  unfold L0.isDate Rx.Date
  rw [matchString_anch _ (by decide), lang_date]

theorem lang_timeInterval {g : Nat} {w : Str} : Lang (Rx.timeInterval g) w ↔
    ∃ a b : Date0, (a.year < 10000 ∧ Date0.shapeOk a) ∧ (b.year < 10000 ∧ Date0.shapeOk b) ∧ w = a.text ++ '/' :: b.text := by
  constructor
  · rintro ⟨u, v, rfl, hu, u2, v2, rfl, h2, h3⟩
    obtain ⟨a, ha1, ha2, rfl⟩ := lang_date.1 hu
    have h2 := lang_lit.1 h2; subst h2
    obtain ⟨b, hb1, hb2, rfl⟩ := lang_date.1 h3
    exact ⟨a, b, ⟨ha1, ha2⟩, ⟨hb1, hb2⟩, rfl⟩
  · rintro ⟨a, b, ha, hb, rfl⟩
    exact ⟨a.text, _, rfl, lang_date.2 ⟨a, ha.1, ha.2, rfl⟩, ['/'], b.text, rfl, lang_lit.2 rfl,
      lang_date.2 ⟨b, hb.1, hb.2, rfl⟩⟩

theorem isTimeInterval_iff {s : Str} : L0.isTimeInterval s = true ↔
    ∃ a b : Date0, (a.year < 10000 ∧ Date0.shapeOk a) ∧ (b.year < 10000 ∧ Date0.shapeOk b) ∧ s = a.text ++ '/' :: b.text := by
  unfold L0.isTimeInterval Rx.TimeInterval
  rw [matchString_anch _ (by decide), lang_timeInterval]

theorem isLevel0_iff {s : Str} : L0.isLevel0 s = (L0.isDate s || L0.isDateAndTime s || L0.isTimeInterval s) := by
  unfold L0.isLevel0 L0.isDate L0.isDateAndTime L0.isTimeInterval Rx.Level0 Rx.Date Rx.DateAndTime Rx.TimeInterval
  rw [Bool.eq_iff_iff]
  simp only [Bool.or_eq_true]
  rw [matchString_anch _ (by decide), matchString_anch _ (by decide), matchString_anch _ (by decide),
    matchString_anch _ (by decide)]
  -- the language does not depend on the group numbers
  have hd : ∀ g w, Lang (Rx.dateAndTime g) w ↔ Lang (Rx.dateAndTime 1) w := fun g w => by
    simp only [Rx.dateAndTime, Rx.timePart, Rx.two, lang_cat, lang_date, lang_grp, lang_opt, lang_alt]
  rw [lang_grp, lang_alt, lang_alt, hd 5, lang_date, lang_date, lang_timeInterval, lang_timeInterval, or_assoc]

theorem parseString_isDate {s : Str} (h : L0.isDate s = true) : parseString s = L0.parseDate s := by
  unfold parseString
  rw [isLevel0_iff, h]
  simp [L0.parseString, h]

theorem dateSpanFromEDTF_noSlash {s : Str} (h : '/' ∉ s) : dateSpanFromEDTF s = dateSpanFromYMD s := by
  unfold dateSpanFromEDTF
  rw [splitChar_none h]

theorem dateSpanFromEDTF_slash {u v : Str} (h1 : '/' ∉ u) (h2 : '/' ∉ v) :
    dateSpanFromEDTF (u ++ '/' :: v) = (do
      let left ← halfSpan u
      let right ← halfSpan v
      joinHalves left right) := by
  unfold dateSpanFromEDTF
  rw [splitChar_append h1, splitChar_none h2]

theorem parseDate_eq {s : Str} (h : L0.isDate s = true) :
    L0.parseDate s = (do let sp ← dateSpanFromYMD s; .ok (mkEDTF sp s 0 L0.DATE)) := by
  unfold L0.parseDate
  rw [show Rx.Date.matchString s = true from h]
  obtain ⟨x, -, -, rfl⟩ := isDate_iff.1 h
  simp only [Bool.not_true, Bool.false_eq_true, if_false,
    dateSpanFromEDTF_noSlash (date0_not_mem x (show isDig '/' = false from rfl) (by decide))]

theorem isDateAndTime_false_of_slash {s : Str} (h : '/' ∈ s) : L0.isDateAndTime s = false := by
  unfold L0.isDateAndTime Rx.DateAndTime
  rw [matchString_anch_false _ (by decide)]
  exact not_lang_of_char (by decide) h

theorem isDate_false_of_slash {s : Str} (h : '/' ∈ s) : L0.isDate s = false := by
  unfold L0.isDate Rx.Date
  rw [matchString_anch_false _ (by decide)]
  exact not_lang_of_char (by decide) h

theorem parseString_isTimeInterval {s : Str} (h : L0.isTimeInterval s = true) :
    parseString s = L0.parseTimeInterval s := by
  have hs : '/' ∈ s := by
    obtain ⟨a, b, -, -, rfl⟩ := isTimeInterval_iff.1 h
    simp
  unfold parseString
  rw [isLevel0_iff, h]
  simp [L0.parseString, h, isDate_false_of_slash hs, isDateAndTime_false_of_slash hs]

theorem parseTimeInterval_eq {a b : Date0} (ha : a.year < 10000 ∧ Date0.shapeOk a)
    (hb : b.year < 10000 ∧ Date0.shapeOk b) :
    parseString (a.text ++ '/' :: b.text) = (do
      let left ← dateSpanFromYMD a.text
      let right ← dateSpanFromYMD b.text
      let sp ← joinHalves left right
      .ok (mkEDTF sp (a.text ++ '/' :: b.text) 0 L0.TIME_INTERVAL)) := by
  have h : L0.isTimeInterval (a.text ++ '/' :: b.text) = true := isTimeInterval_iff.2 ⟨a, b, ha, hb, rfl⟩
  rw [parseString_isTimeInterval h]
  unfold L0.parseTimeInterval
  rw [show Rx.TimeInterval.matchString _ = true from h]
  have sl : ∀ x : Date0, '/' ∉ x.text := fun x => date0_not_mem x (show isDig '/' = false from rfl) (by decide)
  rw [dateSpanFromEDTF_slash (sl a) (sl b), halfSpan_date0, halfSpan_date0]
  simp only [Bool.not_true, Bool.false_eq_true, if_false]
  cases dateSpanFromYMD a.text <;> simp only [Res.ok_bind, Res.err_bind, Res.panic_bind]
  cases dateSpanFromYMD b.text <;> simp only [Res.ok_bind, Res.err_bind, Res.panic_bind]

end EDTF
