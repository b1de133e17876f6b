/- The season parser. -/
import Verif.LemmasDisp
import Verif.LemmasIv
import Verif.LemmasErr
namespace EDTF
open Spec

/-! ### Spans of months -/

theorem dayOf_value (y : Int) (m d : Nat) : (dayOf y m d).value = y := by
  unfold dayOf Date0.value
  by_cases h : y < 0 <;> simp [h] <;> omega

theorem dayOf_ok {y : Int} {m d : Nat} (hy : y.natAbs < 10000) (h : Valid y m d) : (dayOf y m d).ok := by
  refine ⟨hy, ?_⟩
  show Valid (dayOf y m d).value m d
  rw [dayOf_value]; exact h

/-- The years that "%04d" writes with four digits. -/
def PadYear (y : Int) : Prop := (0 ≤ y ∨ y ≤ -1000) ∧ y.natAbs < 10000

theorem padInt4_year {y : Int} (h : PadYear y) : padInt 4 y = yearStr (decide (y < 0)) y.natAbs := by
  obtain ⟨h, h2⟩ := h
  unfold padInt
  by_cases hy : y < 0
  · rw [if_pos hy, natDigits_four (by omega) h2]
    simp [yearStr, sgn, hy, zeroPad, pad4]
  · rw [if_neg hy, zeroPad4 h2]
    simp [yearStr, sgn, hy]

theorem valid_first {y : Int} {m : Nat} (h1 : 1 ≤ m) (h2 : m ≤ 12) : Valid y m 1 := ⟨h1, h2, by omega, by have := monthLen_pos y m; omega⟩
theorem valid_last {y : Int} {m : Nat} (h1 : 1 ≤ m) (h2 : m ≤ 12) : Valid y m (monthLen y m) :=
  ⟨h1, h2, by have := monthLen_pos y m; omega, Nat.le_refl _⟩

theorem dayOf_text {y : Int} (h : PadYear y) {m d : Nat} (hm : m < 100) (hd : d < 100) :
    (dayOf y m d).text = padInt 4 y ++ c! "-" ++ padInt 2 (m : Int) ++ c! "-" ++ padInt 2 (d : Int) := by
  rw [date0_text, padInt4_year h, padInt2 hm, padInt2 hd]
  simp [dayOf]

theorem monthLen_lt (y : Int) (m : Nat) : monthLen y m < 100 := by
  unfold monthLen; split <;> (try split) <;> omega

theorem span_months {y1 y2 : Int} {m1 m2 : Nat} (h1 : PadYear y1) (h2 : PadYear y2) (a1 : 1 ≤ m1) (b1 : m1 ≤ 12) (a2 : 1 ≤ m2) (b2 : m2 ≤ 12) :
    dateSpanFromEDTF (L1.seasonString ⟨y1, m1, y2, m2⟩ (monthLen y2 m2)) =
      .ok ⟨some ((Side.date (dayOf y1 m1 1)).range U), some ((Side.date (dayOf y2 m2 (monthLen y2 m2))).range U)⟩ := by
  have := span_sides (l := .date (dayOf y1 m1 1)) (r := .date (dayOf y2 m2 (monthLen y2 m2)))
    (dayOf_ok h1.2 (valid_first a1 b1)) (dayOf_ok h2.2 (valid_last a2 b2))
  rw [← this]
  congr 1
  simp only [Side.text]
  rw [dayOf_text h1 (by omega) (by omega), dayOf_text h2 (by omega) (monthLen_lt _ _)]
  simp [L1.seasonString]

/-! ### The numeric form -/

/-- Numbers the numeric form admits. -/
def SeasonNum (m : Nat) : Prop := (1 ≤ m ∧ m ≤ 12) ∨ (21 ≤ m ∧ m ≤ 24)

instance (m : Nat) : Decidable (SeasonNum m) := by unfold SeasonNum; infer_instance

theorem lang_seasonCode {w : Str} : Lang seasonCode w ↔ ∃ m, m < 100 ∧ SeasonNum m ∧ w = pad2 m :=
  lang_table2 SeasonNum (by decide) (by decide) ⟨_, rfl, by decide⟩ (by decide +kernel)

theorem split_yearStr {neg neg' : Bool} {n n' : Nat} {t t' : Str} (ht : DashTail t) (ht' : DashTail t')
    (e : yearStr neg n ++ t = yearStr neg' n' ++ t') : yearStr neg n = yearStr neg' n' ∧ t = t' :=
  split_year (a := ⟨yearStr neg n, .none⟩) (a' := ⟨yearStr neg' n', .none⟩) ⟨rfl, lang_yearStr _ _⟩ ⟨rfl, lang_yearStr _ _⟩ ht ht' e

/-- The span for a number. -/
def numSpan (y : Int) (m : Nat) : L1.SeasonSpan :=
  if m = 21 then ⟨y, 3, y, 5⟩ else if m = 22 then ⟨y, 6, y, 8⟩ else if m = 23 then ⟨y, 9, y, 11⟩
  else if m = 24 then ⟨y, 12, y + 1, 2⟩ else ⟨y, m, y, m⟩

/-- Any string that starts like `YYYY-MM` is treated as this month or season; the
rest of the string plays no part. -/
theorem season_num {neg : Bool} {n m : Nat} (hn : n < 10000) (hm : SeasonNum m) (rest : Str) :
    L1.isSeason (yearStr neg n ++ '-' :: (pad2 m ++ rest)) = true ∧
    L1.parseSeason (yearStr neg n ++ '-' :: (pad2 m ++ rest)) = (do
      let dm ← daysInMonth (numSpan (if neg then -(n : Int) else n) m).end_yyyy (numSpan (if neg then -(n : Int) else n) m).end_mm
      let sp ← dateSpanFromEDTF (L1.seasonString (numSpan (if neg then -(n : Int) else n) m) dm)
      .ok (mkEDTF sp (yearStr neg n ++ '-' :: (pad2 m ++ rest)) 1 L1.SEASON)) := by
  have hm2 : m < 100 := by unfold SeasonNum at hm; omega
  have hP : SeasonPrefix (yearStr neg n ++ '-' :: (pad2 m ++ rest)) :=
    ⟨yearStr neg n, pad2 m, rest, lang_year4'.2 ⟨neg, n, hn, rfl⟩, lang_seasonCode.2 ⟨m, hm2, hm, rfl⟩, rfl⟩
  have hs := season_iff.2 (.inl hP)
  refine ⟨hs, ?_⟩
  have hs' := hs
  unfold L1.isSeason at hs'
  rw [← isSome_submatch] at hs'
  obtain ⟨c, hc⟩ := Option.isSome_iff_exists.1 hs'
  rcases season_caps hc with ⟨h1, h2, r, e⟩ | ⟨k, -⟩
  · obtain ⟨neg', n', hn', e1⟩ := lang_year4'.1 h1
    obtain ⟨m', hm', hS', e2⟩ := lang_seasonCode.1 h2
    rw [e1, e2] at e
    obtain ⟨e3, e4⟩ := split_yearStr (.inr ⟨_, rfl⟩) (.inr ⟨_, rfl⟩) e
    injection e4 with _ e4
    obtain ⟨e5, -⟩ := List.append_inj e4 rfl
    have c1 : c 1 = yearStr neg n := by rw [e1, e3]
    have c2 : c 2 = pad2 m := by rw [e2, e5]
    have key : L1.seasonSpan (yearStr neg n ++ '-' :: (pad2 m ++ rest)) c = .ok (numSpan (if neg then -(n : Int) else n) m) := by
      unfold L1.seasonSpan
      rw [if_neg (by rw [c1]; exact yearStr_ne_nil _ _), c1, c2]
      unfold L1.seasonOfNum numSpan
      rw [atoi_yearStr neg hn, atoi_pad2 hm2]
      simp only [Res.ofOption_some, Res.ok_bind]
      by_cases h1 : m = 21
      · subst h1; rfl
      · by_cases h2 : m = 22
        · subst h2; rfl
        · by_cases h3 : m = 23
          · subst h3; rfl
          · by_cases h4 : m = 24
            · subst h4; rfl
            · rw [if_neg (by omega), if_neg (by omega), if_neg (by omega), if_neg (by omega), if_neg h1, if_neg h2, if_neg h3, if_neg h4]
    unfold L1.parseSeason
    rw [hc]
    simp only [key, Res.ok_bind]
  · exact absurd hP k

/-- The months for a number. -/
theorem numSpan_bounds {y : Int} {m : Nat} (hm : SeasonNum m) : ∃ m1 m2 : Nat, 1 ≤ m1 ∧ m1 ≤ 12 ∧ 1 ≤ m2 ∧ m2 ≤ 12 ∧
    numSpan y m = ⟨y, m1, if m = 24 then y + 1 else y, m2⟩ := by
  unfold numSpan
  by_cases h1 : m = 21
  · subst h1; exact ⟨3, 5, by decide, by decide, by decide, by decide, rfl⟩
  by_cases h2 : m = 22
  · subst h2; exact ⟨6, 8, by decide, by decide, by decide, by decide, rfl⟩
  by_cases h3 : m = 23
  · subst h3; exact ⟨9, 11, by decide, by decide, by decide, by decide, rfl⟩
  by_cases h4 : m = 24
  · subst h4; exact ⟨12, 2, by decide, by decide, by decide, by decide, rfl⟩
  unfold SeasonNum at hm
  refine ⟨m, m, by omega, by omega, by omega, by omega, ?_⟩
  rw [if_neg h1, if_neg h2, if_neg h3, if_neg h4, if_neg h4]

theorem span_result {y1 y2 : Int} {m1 m2 : Nat} (h1 : PadYear y1) (h2 : PadYear y2) (a1 : 1 ≤ m1) (b1 : m1 ≤ 12) (a2 : 1 ≤ m2) (b2 : m2 ≤ 12)
    (s : Str) : (do
      let dm ← daysInMonth y2 m2
      let sp ← dateSpanFromEDTF (L1.seasonString ⟨y1, m1, y2, m2⟩ dm)
      .ok (mkEDTF sp s 1 L1.SEASON)) = Res.ok (monthsResult U s 1 (c! "Seasons") y1 m1 y2 m2) := by
  rw [daysInMonth_eq h2.2 a2 b2]
  simp only [Res.ok_bind]
  rw [span_months h1 h2 a1 b1 a2 b2]
  rfl

/-! ### The form in words -/

/-- A small letter other than k. -/
def isLow (c : Char) : Bool := Nat.ble 97 c.toNat && Nat.ble c.toNat 122 && c != 'k'

/-- The capital of a small letter. -/
def capital (c : Char) : Char := Char.ofNat (c.toNat - 32)

theorem low_table : ∀ k : Fin 26, clsHas true [(Char.ofNat (97 + k), Char.ofNat (97 + k))] (Char.ofNat (97 + k)) = true ∧
    clsHas true [(Char.ofNat (97 + k), Char.ofNat (97 + k))] (capital (Char.ofNat (97 + k))) = true := by decide +kernel

theorem char_ofNat_toNat (c : Char) : Char.ofNat c.toNat = c := by
  exact Char.ofNat_toNat c

theorem low_fold {a : Char} (h : isLow a = true) : clsHas true [(a, a)] a = true ∧ clsHas true [(a, a)] (capital a) = true := by
  simp only [isLow, Bool.and_eq_true, Nat.ble_eq] at h
  have := low_table ⟨a.toNat - 97, by omega⟩
  simp only [show 97 + (a.toNat - 97) = a.toNat by omega, char_ofNat_toNat] at this
  exact this

theorem char_eq_of_toNat {a b : Char} (h : a.toNat = b.toNat) : a = b := by
  rw [← char_ofNat_toNat a, h, char_ofNat_toNat]

theorem capital_toNat {a : Char} (h : 97 ≤ a.toNat) (h2 : a.toNat ≤ 122) : (capital a).toNat = a.toNat - 32 := by
  have : ∀ k : Fin 26, (capital (Char.ofNat (97 + k))).toNat = 97 + k - 32 := by decide +kernel
  have := this ⟨a.toNat - 97, by omega⟩
  simp only [show 97 + (a.toNat - 97) = a.toNat by omega, char_ofNat_toNat] at this
  exact this

/-- What matches a small letter in the caseless part of the pattern. -/
theorem upper_of_fold {a c : Char} (ha : isLow a = true) (h : clsHas true [(a, a)] c = true) : upperC c = capital a := by
  have ha' := ha
  simp only [isLow, Bool.and_eq_true, Nat.ble_eq, bne_iff_ne] at ha
  unfold clsHas at h
  rw [if_pos rfl, List.any_eq_true] at h
  obtain ⟨d, hd, h⟩ := h
  simp only [List.any_cons, List.any_nil, Bool.or_false, inR_single, beq_iff_eq] at h
  subst h
  unfold orbit at hd
  unfold upperC
  split at hd
  · rename_i k
    simp only [Bool.and_eq_true, Nat.ble_eq] at k
    rw [if_pos (by simp only [Bool.and_eq_true, Nat.ble_eq]; exact k)]
    simp only [List.mem_cons, List.not_mem_nil, or_false] at hd
    rcases hd with rfl | rfl
    · rfl
    · exfalso
      have := capital_toNat k.1 k.2
      unfold capital at this
      omega
  · rename_i k0
    rw [if_neg k0]
    split at hd
    · rename_i k
      simp only [Bool.and_eq_true, Nat.ble_eq] at k
      simp only [List.mem_cons, List.not_mem_nil, or_false] at hd
      rcases hd with rfl | rfl
      · omega
      · have e : (Char.ofNat (c.toNat + 32)).toNat = c.toNat + 32 := by
          have : ∀ k : Fin 26, (Char.ofNat (65 + k + 32)).toNat = 65 + k + 32 := by decide +kernel
          have := this ⟨c.toNat - 65, by omega⟩
          simp only [show 65 + (c.toNat - 65) = c.toNat by omega] at this
          exact this
        rw [if_neg (by rintro rfl; exact absurd k.2 (by decide))]
        apply char_eq_of_toNat
        rw [capital_toNat ha.1.1 ha.1.2, e]
        omega
    · split at hd
      · rename_i k
        simp only [List.mem_cons, List.not_mem_nil, or_false] at hd
        rw [if_pos k]
        rcases hd with rfl | rfl
        · decide
        · exact absurd ha.1.1 (by decide)
      · split at hd
        · simp only [List.mem_cons, List.not_mem_nil, or_false] at hd
          rcases hd with rfl | rfl
          · exact absurd rfl ha.2
          · exact absurd ha.1.1 (by decide)
        · simp only [List.mem_cons, List.not_mem_nil, or_false] at hd
          subst hd
          exfalso
          apply k0
          simp only [Bool.and_eq_true, Nat.ble_eq]
          exact ha.1

theorem word_cons (c : Char) (v : Str) (w : Str) (hv : v ≠ []) : Lang (Rx.word (c :: v)) w ↔ ∃ d w', w = d :: w' ∧ clsHas true [(c, c)] d = true ∧ Lang (Rx.word v) w' := by
  obtain ⟨a, as, rfl⟩ := List.exists_cons_of_ne_nil hv
  show Lang (.cls true [(c, c)] ⬝ Rx.word (a :: as)) w ↔ _
  rw [lang_cat]
  constructor
  · rintro ⟨u, v, rfl, ⟨d, rfl, hd⟩, hv⟩
    exact ⟨d, v, rfl, hd, hv⟩
  · rintro ⟨d, w', rfl, hd, hw⟩
    exact ⟨[d], w', rfl, ⟨d, rfl, hd⟩, hw⟩

theorem word_upper {v w : Str} (hv : v.all isLow = true) (hne : v ≠ []) (h : Lang (Rx.word v) w) : toUpper w = v.map capital := by
  induction v generalizing w with
  | nil => exact absurd rfl hne
  | cons c v ih =>
    simp only [List.all_cons, Bool.and_eq_true] at hv
    by_cases hv' : v = []
    · subst hv'
      obtain ⟨d, rfl, hd⟩ := h
      show [upperC d] = [capital c]
      rw [upper_of_fold hv.1 hd]
    · obtain ⟨d, w', rfl, hd, hw⟩ := (word_cons c v w hv').1 h
      show upperC d :: toUpper w' = capital c :: v.map capital
      rw [upper_of_fold hv.1 hd, ih hv.2 hv' hw]

theorem season_low (z : Season) : z.word.all isLow = true ∧ z.word ≠ [] := by cases z <;> decide

theorem lang_seasonWord (z : Season) {w : Str} (this : Lang (Rx.word z.word) w) : Lang seasonWord w := by
  cases z
  · exact .inl this
  · exact .inr (.inl this)
  · exact .inr (.inr (.inl this))
  · exact .inr (.inr (.inr this))

theorem seasonWord_upper {w : Str} (h : Lang seasonWord w) : ∃ z : Season, toUpper w = z.word.map capital := by
  rcases h with h | h | h | h
  · exact ⟨.spring, word_upper (season_low .spring).1 (season_low .spring).2 h⟩
  · exact ⟨.summer, word_upper (season_low .summer).1 (season_low .summer).2 h⟩
  · exact ⟨.fall, word_upper (season_low .fall).1 (season_low .fall).2 h⟩
  · exact ⟨.winter, word_upper (season_low .winter).1 (season_low .winter).2 h⟩

/-! Blanks. -/

def isBl (c : Char) : Bool := c == ' ' || c == '\t' || c == '\n' || c == '\x0c' || c == '\r'

theorem blank_iff {s : Str} : Blank s ↔ s.all isBl = true := by
  simp [Blank, isBl, or_assoc]

theorem fold_sp (c : Char) : clsHas true [('\t', '\n'), ('\x0c', '\r'), (' ', ' ')] c = isBl c := by
  have e : clsHas true [('\t', '\n'), ('\x0c', '\r'), (' ', ' ')] c = clsHas false [('\t', '\n'), ('\x0c', '\r'), (' ', ' ')] c := by
    have := lang_ci_noLetter (r := Rx.sp) (by decide) [c]
    rw [Bool.eq_iff_iff]
    simp only [Re.ci, Rx.sp, Lang] at this
    constructor
    · intro h
      obtain ⟨d, hd, h⟩ := this.1 ⟨c, rfl, h⟩
      injection hd with hd; rw [hd]; exact h
    · intro h
      obtain ⟨d, hd, h⟩ := this.2 ⟨c, rfl, h⟩
      injection hd with hd; rw [hd]; exact h
  rw [e]
  unfold clsHas isBl
  simp only [Bool.false_eq_true, if_false, List.any_cons, List.any_nil, Bool.or_false, inR_single, inR]
  rw [Bool.eq_iff_iff]
  simp only [Bool.or_eq_true, Bool.and_eq_true, Nat.ble_eq, beq_iff_eq]
  have t : ∀ {d : Char}, c = d ↔ c.toNat = d.toNat := fun {d} => ⟨fun h => by rw [h], char_eq_of_toNat⟩
  rw [t, t, t, t, t]
  simp only [show ' '.toNat = 32 from rfl, show '\t'.toNat = 9 from rfl, show '\n'.toNat = 10 from rfl, show '\x0c'.toNat = 12 from rfl,
    show '\r'.toNat = 13 from rfl]
  omega

theorem lang_blanks {s : Str} : Lang (.star Rx.sp.ci) s ↔ s.all isBl = true := by
  constructor
  · intro h
    refine star_all (fun w hw => ?_) h
    obtain ⟨c, rfl, hc⟩ := hw
    simp only [List.all_cons, List.all_nil, Bool.and_true]
    rw [← fold_sp]; exact hc
  · intro h
    induction s with
    | nil => exact Star.nil
    | cons c s ih =>
      simp only [List.all_cons, Bool.and_eq_true] at h
      exact Star.cons [c] s ⟨c, rfl, (fold_sp c).trans h.1⟩ (by simp) (ih h.2)

theorem fold_comma {c : Char} (h : clsHas true [(',', ',')] c = true) : c = ',' := by
  have := (lang_ci_noLetter (r := Rx.lit ',') (by decide) [c]).1 ⟨c, rfl, h⟩
  have := lang_lit.1 this
  injection this

theorem lang_four {y : Str} : Lang (Re.rep Rx.digit.ci 4) y ↔ ∃ n, n < 10000 ∧ y = pad4 n := by
  rw [show Re.rep Rx.digit.ci 4 = (Re.rep Rx.digit 4).ci from rfl, lang_ci_noLetter (by decide), lang_rep4 (fun w => lang_digit)]
  constructor
  · rintro ⟨a, b, c, d, rfl, ha, hb, hc, hd⟩
    exact four_digits ha hb hc hd
  · rintro ⟨n, -, rfl⟩
    exact ⟨_, _, _, _, rfl, isDig_dig _, isDig_dig _, isDig_dig _, isDig_dig _⟩

theorem last_sep {c : Char} {a b a' b' : Str} (h : c ∉ b) (h' : c ∉ b') (e : a ++ c :: b = a' ++ c :: b') : a = a' ∧ b = b' := by
  have aux : ∀ {a b a' b' : Str}, c ∉ b → a ++ c :: b = a' ++ c :: b' → a.length < a'.length → False := by
    intro a b a' b' h e hl
    rcases List.append_eq_append_iff.1 e with ⟨z, e1, e2⟩ | ⟨z, e1, e2⟩
    · cases z with
      | nil => rw [e1] at hl; simp at hl
      | cons x xs =>
        simp only [List.cons_append, List.cons.injEq] at e2
        apply h; rw [e2.2]; simp
    · rw [e1] at hl; simp at hl; omega
  have hl : a.length = a'.length := by
    rcases Nat.lt_trichotomy a.length a'.length with k | k | k
    · exact (aux h e k).elim
    · exact k
    · exact (aux h' e.symm k).elim
  obtain ⟨e1, e2⟩ := List.append_inj e hl
  injection e2 with _ e2
  exact ⟨e1, e2⟩

theorem strip_blank {x y s t : Str} (hx : x.all isBl = false ∨ x = []) (hs : s.all isBl = true) (ht : t.all isBl = true)
    (x1 : ∀ c ∈ x, isBl c = false) (y1 : ∀ c ∈ y, isBl c = false) (pre : Str) (hne : x ≠ []) (hne' : y ≠ [])
    (e : pre ++ x ++ s = y ++ t) : pre ++ x = y ∧ s = t := by
  have d : ∀ {u s : Str} {c : Char}, s.all isBl = true → isBl c = false → ((u ++ [c]) ++ s).reverse.dropWhile isBl = (u ++ [c]).reverse := by
    intro u s c hs hc
    rw [List.reverse_append, List.dropWhile_append_of_pos (by intro a ha; exact List.all_eq_true.1 hs a (List.mem_reverse.1 ha))]
    simp [hc]
  obtain ⟨x', c, rfl⟩ : ∃ x' c, x = x' ++ [c] := ⟨x.dropLast, x.getLast hne, (List.dropLast_concat_getLast hne).symm⟩
  obtain ⟨y', c', rfl⟩ : ∃ y' c', y = y' ++ [c'] := ⟨y.dropLast, y.getLast hne', (List.dropLast_concat_getLast hne').symm⟩
  have e1 := d (u := pre ++ x') hs (x1 c (by simp))
  have e2 := d (u := y') ht (y1 c' (by simp))
  rw [List.append_assoc pre x' [c], e, e2] at e1
  have e3 := congrArg List.reverse e1
  simp only [List.reverse_reverse] at e3
  rw [← e3] at e
  exact ⟨e3.symm, List.append_cancel_left e⟩

theorem upper_not_blank {w : Str} {z : Season} (h : toUpper w = z.word.map capital) : ∀ c ∈ w, isBl c = false ∧ c ≠ ',' ∧ isDig c = false ∧ c ≠ '-' := by
  intro c hc
  have h1 : upperC c ∈ z.word.map capital := by rw [← h]; exact List.mem_map.2 ⟨c, hc, rfl⟩
  have tab : ∀ d ∈ z.word.map capital, 65 ≤ d.toNat ∧ d.toNat ≤ 90 := by cases z <;> decide
  have h2 := tab _ h1
  have t : ∀ {d : Char}, c = d → upperC c = upperC d := fun h => by rw [h]
  refine ⟨?_, ?_, ?_, ?_⟩
  · cases hb : isBl c with
    | false => rfl
    | true =>
      simp only [isBl, Bool.or_eq_true, beq_iff_eq] at hb
      rcases hb with (((hb | hb) | hb) | hb) | hb <;> subst hb <;> exact absurd h2 (by decide)
  · rintro rfl; exact absurd h2 (by decide)
  · cases hb : isDig c with
    | false => rfl
    | true =>
      have : upperC c = c := by
        unfold upperC
        simp only [isDig, Bool.and_eq_true, Nat.ble_eq] at hb
        rw [if_neg (by simp only [Bool.and_eq_true, Nat.ble_eq]; omega), if_neg (by rintro rfl; exact absurd hb.2 (by decide))]
      rw [this] at h2
      simp only [isDig, Bool.and_eq_true, Nat.ble_eq] at hb
      omega
  · rintro rfl; exact absurd h2 (by decide)

theorem word_suffix : ∀ z z' : Season, (z.word.map capital).isSuffixOf (z'.word.map capital) = true → z = z' := by
  intro z z'; cases z <;> cases z' <;> decide

/-- The span for a name. -/
def textSpan (y : Int) (z : Season) : L1.SeasonSpan := ⟨y, z.firstMonth, z.lastYear y, z.lastMonth⟩

theorem season_text (z : Season) {w t1 t2 : Str} {n : Nat} (hw : Lang (Rx.word z.word) w) (h1 : Blank t1) (h2 : Blank t2) (hn : n < 10000) :
    L1.isSeason (w ++ (t1 ++ ',' :: (t2 ++ pad4 n))) = true ∧
    L1.parseSeason (w ++ (t1 ++ ',' :: (t2 ++ pad4 n))) = (do
      let dm ← daysInMonth (z.lastYear n) z.lastMonth
      let sp ← dateSpanFromEDTF (L1.seasonString (textSpan n z) dm)
      .ok (mkEDTF sp (w ++ (t1 ++ ',' :: (t2 ++ pad4 n))) 1 L1.SEASON)) := by
  have hwU := word_upper (season_low z).1 (season_low z).2 hw
  have hwne : w ≠ [] := by rintro rfl; cases z <;> cases hwU
  have hnb := upper_not_blank hwU
  rw [blank_iff] at h1 h2
  have hS : SeasonSuffix (w ++ (t1 ++ ',' :: (t2 ++ pad4 n))) :=
    ⟨[], w, t1, ',', t2, pad4 n, lang_seasonWord z hw, lang_blanks.2 h1, by decide, lang_blanks.2 h2, lang_four.2 ⟨n, hn, rfl⟩, rfl⟩
  have hs := season_iff.2 (.inr hS)
  refine ⟨hs, ?_⟩
  have hs' := hs
  unfold L1.isSeason at hs'
  rw [← isSome_submatch] at hs'
  obtain ⟨c, hc⟩ := Option.isSome_iff_exists.1 hs'
  rcases season_caps hc with ⟨k1, k2, r, e⟩ | ⟨-, k1, k3, k4, pre, s1, cc, s2, l1, hcc, l2, e⟩
  · exfalso
    obtain ⟨neg', n', hn', e1⟩ := lang_year4'.1 k1
    obtain ⟨a, as, rfl⟩ := List.exists_cons_of_ne_nil hwne
    have := hnb a (by simp)
    rw [e1] at e
    cases neg' with
    | true => injection e with e _; exact this.2.2.2 e
    | false => injection e with e _; rw [e] at this; have h := this.2.2.1; rw [isDig_dig] at h; cases h
  · have := fold_comma hcc
    subst this
    rw [lang_blanks] at l1 l2
    obtain ⟨n', hn', e4⟩ := lang_four.1 k4
    have noc : ∀ {s : Str} {n : Nat}, s.all isBl = true → ',' ∉ s ++ pad4 n := by
      intro s n hs hm
      rcases List.mem_append.1 hm with hm | hm
      · have := List.all_eq_true.1 hs _ hm; exact absurd this (by decide)
      · have := List.all_eq_true.1 (pad4_all n) _ hm; exact absurd this (by decide)
    rw [← List.append_assoc, ← List.append_assoc, ← List.append_assoc, e4] at e
    obtain ⟨e5, e6⟩ := last_sep (noc h2) (noc l2) e
    obtain ⟨-, e7⟩ := List.append_inj' e6 rfl
    obtain ⟨z', hz'⟩ := seasonWord_upper k3
    have k3ne : c 3 ≠ [] := by intro h; rw [h] at hz'; cases z' <;> cases hz'
    obtain ⟨e8, -⟩ := strip_blank (.inl (by
        obtain ⟨a, as, ha⟩ := List.exists_cons_of_ne_nil k3ne
        rw [ha]; simp only [List.all_cons, Bool.and_eq_false_iff]
        exact .inl ((upper_not_blank hz') a (by rw [ha]; simp)).1)) l1 h1
      (fun a ha => ((upper_not_blank hz') a ha).1) (fun a ha => (hnb a ha).1) pre k3ne hwne e5.symm
    have e9 : toUpper pre ++ z'.word.map capital = z.word.map capital := by
      rw [← hz', ← hwU, ← e8]; simp [toUpper]
    have e10 : z' = z := word_suffix z' z (by rw [← e9, List.isSuffixOf_iff_suffix]; exact List.suffix_append _ _)
    subst e10
    have e11 : pre = [] := by
      have := congrArg List.length e9
      simp [toUpper] at this
      exact this
    subst e11
    have c3 : c 3 = w := e8
    have c4 : c 4 = pad4 n := by rw [e4, e7]
    have key : L1.seasonSpan (w ++ (t1 ++ ',' :: (t2 ++ pad4 n))) c = .ok (textSpan n z') := by
      unfold L1.seasonSpan
      rw [if_pos k1, c3, c4]
      unfold L1.seasonOfText
      rw [atoi_pad4 hn, hwU]
      cases z' <;> rfl
    unfold L1.parseSeason
    rw [hc]
    simp only [key, Res.ok_bind, textSpan]

end EDTF
