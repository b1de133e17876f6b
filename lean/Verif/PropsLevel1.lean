/- C16, C17, C18, C22, C49: the level 1 features. -/
import Verif.LemmasSeason
import Verif.PropsDate
namespace EDTF
open Spec

variable {f : Int → Nat → Nat → Int}

/-! ### Which parser is reached -/

theorem yearStr_append {neg neg' : Bool} {n n' : Nat} {t t' : Str} (e : yearStr neg n ++ t = yearStr neg' n' ++ t') :
    yearStr neg n = yearStr neg' n' ∧ t = t' := by
  cases neg <;> cases neg'
  · exact List.append_inj e rfl
  · exfalso
    injection e with e _
    have := isDig_dig (n / 1000)
    rw [e] at this
    exact absurd this (by decide)
  · exfalso
    injection e with e _
    have := isDig_dig (n' / 1000)
    rw [← e] at this
    exact absurd this (by decide)
  · exact List.append_inj e rfl

theorem not_season_char {s : Str} (h1 : ∀ neg n rest, s = yearStr neg n ++ rest → ∀ u, rest ≠ '-' :: u) (h2 : ',' ∉ s) :
    L1.isSeason s = false := by
  cases h : L1.isSeason s with
  | false => rfl
  | true =>
    exfalso
    rcases season_iff.1 h with ⟨y, c, rest, hy, -, e⟩ | ⟨pre, w, s1, c, s2, y, -, -, hc, -, -, e⟩
    · obtain ⟨neg, n, -, rfl⟩ := lang_year4'.1 hy
      exact h1 neg n _ e _ rfl
    · apply h2
      rw [fold_comma hc] at e
      rw [e]; simp

theorem year_not_season {neg : Bool} {n : Nat} {t : Str} (h1 : ∀ u, t ≠ '-' :: u) (h2 : ',' ∉ t) : L1.isSeason (yearStr neg n ++ t) = false := by
  refine not_season_char (fun neg' n' rest e u hr => ?_) ?_
  · obtain ⟨-, e⟩ := yearStr_append e
    exact h1 u (e.trans hr)
  · intro hm
    rcases List.mem_append.1 hm with hm | hm
    · cases neg
      · exact absurd (List.all_eq_true.1 (pad4_all n) _ hm) (by decide)
      · rcases List.mem_cons.1 hm with hm | hm
        · exact absurd hm (by decide)
        · exact absurd (List.all_eq_true.1 (pad4_all n) _ hm) (by decide)
    · exact h2 hm

theorem not_letter {s : Str} (h : 'Y' ∉ s) : L1.isLetterPrefixedCalendarYear s = false := by
  cases hs : L1.isLetterPrefixedCalendarYear s with
  | false => rfl
  | true => exact absurd (isLetter_iff.1 hs) (not_lang_of_must ['Y'] (by decide) (by simpa using h))

/-- Text with something that no level 0 text has. -/
theorem not_level0_of {s : Str} {c : Char} (hc : c ∈ s) (h1 : isDig c = false) (h2 : c ∉ [':', '+', '-', 'T', 'Z', '/']) : L0.isLevel0 s = false := by
  cases hs : L0.isLevel0 s with
  | false => rfl
  | true =>
    exfalso
    unfold L0.isLevel0 Rx.Level0 at hs
    rw [matchString_anch _ (by decide)] at hs
    have := lang_mayHave _ _ hs c hc
    simp only [List.mem_cons, List.not_mem_nil, or_false, not_or] at h2
    obtain ⟨a1, a2, a3, a4, a5, a6⟩ := h2
    revert this
    have hd : ∀ {lo hi : Char}, isDig lo = true → isDig hi = true → inR c (lo, hi) = false := by
      intro lo hi hlo hhi
      simp only [isDig, Bool.and_eq_true, Nat.ble_eq] at hlo hhi
      cases hx : inR c (lo, hi) with
      | false => rfl
      | true =>
        simp only [inR, Bool.and_eq_true, Nat.ble_eq] at hx
        have : isDig c = true := by
          simp only [isDig, Bool.and_eq_true, Nat.ble_eq]; omega
        rw [h1] at this; cases this
    have h09 := hd (lo := '0') (hi := '9') (by decide) (by decide)
    have h19 := hd (lo := '1') (hi := '9') (by decide) (by decide)
    have h02 := hd (lo := '0') (hi := '2') (by decide) (by decide)
    have h00 := hd (lo := '0') (hi := '0') (by decide) (by decide)
    have h11 := hd (lo := '1') (hi := '1') (by decide) (by decide)
    have h22 := hd (lo := '2') (hi := '2') (by decide) (by decide)
    have h33 := hd (lo := '3') (hi := '3') (by decide) (by decide)
    have s1 : ∀ a : Char, c ≠ a → inR c (a, a) = false := fun a h => by rw [inR_single]; simpa using h
    simp [Re.mayHave, Rx.date, Rx.dateAndTime, Rx.timeInterval, Rx.timePart, Rx.two, Rx.year4, Rx.month, Rx.day, Re.rep, Rx.digit, Rx.lit, clsHas,
      h09, h19, h02, h00, h11, h22, h33, s1 _ a1, s1 _ a2, s1 _ a3, s1 _ a4, s1 _ a5, s1 _ a6]

/-! ### Lower and upper bounds of spans of months -/

theorem monthsResult_congr (hf : DayCount f) {y1 y2 : Int} {m1 m2 : Nat} (h1 : y1.natAbs < 10000) (h2 : y2.natAbs < 10000)
    (a1 : 1 ≤ m1) (b1 : m1 ≤ 12) (a2 : 1 ≤ m2) (b2 : m2 ≤ 12) (s : Str) (l : Int) (ft : Str) :
    monthsResult U s l ft y1 m1 y2 m2 = monthsResult f s l ft y1 m1 y2 m2 := by
  have e1 := side_congr hf (x := .date (dayOf y1 m1 1)) (dayOf_ok h1 (valid_first a1 b1))
  have e2 := side_congr hf (x := .date (dayOf y2 m2 (monthLen y2 m2))) (dayOf_ok h2 (valid_last a2 b2))
  simp only [Side.range] at e1 e2
  unfold monthsResult
  rw [e1, e2]

/-- The bounds of such a result. -/
theorem monthsResult_bounds (s : Str) (l : Int) (ft : Str) (y1 : Int) (m1 : Nat) (y2 : Int) (m2 : Nat) :
    (monthsResult f s l ft y1 m1 y2 m2).lower = .ok (86400 * f y1 m1 1) ∧
    (monthsResult f s l ft y1 m1 y2 m2).upper = .ok (86400 * f y2 m2 (monthLen y2 m2) + 86399) := by
  constructor
  · simp only [monthsResult, EDTFDate.lower, Date0.range, dayStart, dated, dayOf_value]
    simp [dayOf, Date0.first]
  · simp only [monthsResult, EDTFDate.upper, Date0.range, dayEnd, dated, dayOf_value]
    simp [dayOf, Date0.last]

theorem spanRec_result (hf : DayCount f) {x : Date0} (h : x.ok) (e s : Str) (l : Int) (ft : Str) (u a : Prec) :
    mkEDTF (spanRec e x.value x.first.1 x.first.2 x.value x.last.1 x.last.2 (Date0.isDay x) u a Prec.YEAR) s l ft =
      x.result f e s l ft u a := by
  have v1 := Date0.valid_first h
  have v2 := Date0.valid_last h
  simp only [mkEDTF, spanRec, Date0.result, Date0.isDay, dayStart, dayEnd, dated_congr hf v1, dated_congr hf v2]
  rfl

theorem result_bounds (x : Date0) (e s : Str) (l : Int) (ft : Str) (u a : Prec) :
    (x.result f e s l ft u a).lower = .ok (86400 * f x.value x.first.1 x.first.2) ∧
    (x.result f e s l ft u a).upper = .ok (86400 * f x.value x.last.1 x.last.2 + 86399) := by
  constructor
  · simp [EDTFDate.lower, Date0.result, dayStart, dated]
  · simp [EDTFDate.upper, Date0.result, dayEnd, dated]

/-! ### Texts that are not dates -/

theorem form_year {F : YMDForm} (h : F.ok) : ∃ q neg a b c d t, F.text = Deco.text q (sgn neg [a, b, c, d]) ++ t ∧ q.ok = true ∧
    isDX a = true ∧ isDX b = true ∧ isDX c = true ∧ isDX d = true := by
  have aux : ∀ {k : Comp} (t : Str), k.okFor Rx.yearX → ∃ q neg a b c d t', k.text ++ t = Deco.text q (sgn neg [a, b, c, d]) ++ t' ∧ q.ok = true ∧
    isDX a = true ∧ isDX b = true ∧ isDX c = true ∧ isDX d = true := by
    intro k t hk
    obtain ⟨neg, a, b, c, d, e, r⟩ := lang_yearX.1 hk.2
    exact ⟨k.q, neg, a, b, c, d, t, by rw [Comp.text, e], hk.1, r⟩
  cases F with
  | y a => have := aux [] h; rwa [List.append_nil] at this
  | ym a b => exact aux _ h.1
  | ymd a b c => exact aux _ h.1

/-- A minus sign must be followed by four digits. -/
theorem short_not_form {u t : Str} (hu : u.length = 3) (ht : ∀ c r, t = c :: r → isDX c = false) {F : YMDForm} (hF : F.ok) : '-' :: (u ++ t) ≠ F.text := by
  intro e
  obtain ⟨q, neg, a, b, c, d, t', e', hq, ha, hb, hc, hd⟩ := form_year hF
  rw [e'] at e
  match u, hu with
  | [u1, u2, u3], _ =>
    have key : ∀ w, '-' :: ([u1, u2, u3] ++ t) = '-' :: ([a, b, c, d] ++ w) → False := by
      intro w e
      injection e with _ e
      have e2 := (List.append_inj (s₁ := [u1, u2, u3]) (s₂ := [a, b, c]) (t₁ := t) (t₂ := d :: w) e rfl).2
      rw [ht _ _ e2] at hd; cases hd
    cases q with
    | none =>
      cases neg
      · injection e with e _; exact isDX_ne_dash ha e.symm
      · exact key t' e
    | left q => injection e with e _; exact (isQ_ne hq).1 e.symm
    | right q =>
      cases neg
      · injection e with e _; exact isDX_ne_dash ha e.symm
      · exact key (q :: t') (by simpa [Deco.text, sgn] using e)

theorem padInt4_short {y : Int} (h1 : -999 ≤ y) (h2 : y ≤ -1) : ∃ u, padInt 4 y = '-' :: u ∧ u.length = 3 := by
  have ⟨n, hn⟩ : ∃ n : Nat, y = -(n : Int) := ⟨y.natAbs, by omega⟩
  have k1 : 1 ≤ n := by omega
  have k2 : n < 1000 := by omega
  subst hn
  have tbl : ∀ n : Fin 1000, 1 ≤ n.val → ∃ a b c, padInt 4 (-(n.val : Int)) = ['-', a, b, c] := by
    intro n hn
    have : (match padInt 4 (-(n.val : Int)) with | ['-', _, _, _] => true | _ => false) = true := by
      revert n; decide +kernel
    split at this
    · exact ⟨_, _, _, by assumption⟩
    · cases this
  obtain ⟨a, b, c, e⟩ := tbl ⟨n, k2⟩ k1
  exact ⟨[a, b, c], e, rfl⟩

/-! ### Everything that starts like a year and a month -/

theorem not_letter_year (neg : Bool) (n : Nat) (t : Str) : L1.isLetterPrefixedCalendarYear (yearStr neg n ++ t) = false := by
  cases hs : L1.isLetterPrefixedCalendarYear (yearStr neg n ++ t) with
  | false => rfl
  | true =>
    exfalso
    obtain ⟨u, v, e, hu, -⟩ := lang_cat.1 (isLetter_iff.1 hs)
    rw [lang_lit.1 hu] at e
    cases neg
    · injection e with e _
      have := isDig_dig (n / 1000)
      rw [e] at this
      exact absurd this (by decide)
    · injection e with e _
      exact absurd e (by decide)

theorem parse_prefix {neg : Bool} {n m : Nat} (hn : n < 10000) (hm : SeasonNum m) {rest : Str}
    (h0 : L0.isLevel0 (yearStr neg n ++ '-' :: (pad2 m ++ rest)) = false)
    (h1 : L1.isLevel1 (yearStr neg n ++ '-' :: (pad2 m ++ rest)) = true) :
    parseString (yearStr neg n ++ '-' :: (pad2 m ++ rest)) = L1.parseSeason (yearStr neg n ++ '-' :: (pad2 m ++ rest)) := by
  rw [parse_level1 h0 h1]
  unfold L1.parseString
  rw [not_letter_year, (season_num hn hm rest).1]
  rfl

/-- Years that the fixed-width printing of the season parser writes with four digits. -/
def SeasonYears (y1 y2 : Int) : Prop := PadYear y1 ∧ PadYear y2

theorem parse_prefix_ok (hf : DayCount f) {neg : Bool} {n m m1 m2 : Nat} (hn : n < 10000) (hm : SeasonNum m) {rest : Str} {y1 y2 : Int}
    (h0 : L0.isLevel0 (yearStr neg n ++ '-' :: (pad2 m ++ rest)) = false)
    (h1 : L1.isLevel1 (yearStr neg n ++ '-' :: (pad2 m ++ rest)) = true)
    (hs : numSpan (if neg then -(n : Int) else n) m = ⟨y1, m1, y2, m2⟩) (hy1 : PadYear y1) (hy2 : PadYear y2)
    (a1 : 1 ≤ m1) (b1 : m1 ≤ 12) (a2 : 1 ≤ m2) (b2 : m2 ≤ 12) :
    parseString (yearStr neg n ++ '-' :: (pad2 m ++ rest)) =
      .ok (monthsResult f (yearStr neg n ++ '-' :: (pad2 m ++ rest)) 1 (c! "Seasons") y1 m1 y2 m2) := by
  rw [parse_prefix hn hm h0 h1, (season_num hn hm rest).2, hs]
  show (do
      let dm ← daysInMonth y2 m2
      let sp ← dateSpanFromEDTF (L1.seasonString ⟨y1, m1, y2, m2⟩ dm)
      Res.ok (mkEDTF sp (yearStr neg n ++ '-' :: (pad2 m ++ rest)) 1 L1.SEASON)) = _
  rw [span_result hy1 hy2 a1 b1 a2 b2, monthsResult_congr hf hy1.2 hy2.2 a1 b1 a2 b2]

theorem halfSpan_short {u t : Str} (hu : u.length = 3) (ht : ∀ c r, t = c :: r → isDX c = false) :
    halfSpan ('-' :: (u ++ t)) = .err (Invalid (c! "date") ('-' :: (u ++ t))) := by
  unfold halfSpan
  rw [if_neg (by simp [UNKNOWN, UNSPECIFIED]), if_neg (by simp [OPEN])]
  unfold dateSpanFromYMD
  rw [stringRange_none (fun F hF => short_not_form hu ht hF)]
  rfl

theorem padInt_two_chars {k : Nat} (h : k < 100) : padInt 2 (k : Int) = pad2 k := padInt2 h

/-- With a year of fewer than four digits after the sign there is an error. -/
theorem span_short {y1 y2 : Int} {m1 m2 : Nat} {dm : Int} (h : (-999 ≤ y1 ∧ y1 ≤ -1) ∨ (PadYear y1 ∧ -999 ≤ y2 ∧ y2 ≤ -1))
    (a1 : 1 ≤ m1) (b1 : m1 ≤ 12) (a2 : 1 ≤ m2) (b2 : m2 ≤ 12) (hd : 1 ≤ dm ∧ dm ≤ 31) (n2 : y2.natAbs < 10000) :
    ∃ t, dateSpanFromEDTF (L1.seasonString ⟨y1, m1, y2, m2⟩ dm) = .err (Invalid (c! "date") t) := by
  have ⟨d, hd'⟩ : ∃ d : Nat, dm = d := ⟨dm.toNat, by omega⟩
  subst hd'
  have e : L1.seasonString ⟨y1, m1, y2, m2⟩ (d : Int) =
      (padInt 4 y1 ++ '-' :: (pad2 m1 ++ '-' :: pad2 1)) ++ '/' :: (padInt 4 y2 ++ '-' :: (pad2 m2 ++ '-' :: pad2 d)) := by
    simp only [L1.seasonString]
    rw [padInt_two_chars (k := m1) (by omega), padInt_two_chars (k := m2) (by omega), padInt_two_chars (k := d) (by omega),
      show padInt 2 1 = pad2 1 from padInt_two_chars (k := 1) (by omega)]
    simp
  have ns : ∀ {y : Int} (hy : y.natAbs < 10000) (a b : Nat), '/' ∉ padInt 4 y ++ '-' :: (pad2 a ++ '-' :: pad2 b) := by
    intro y hy a b hc
    have nd : ∀ k, '/' ∉ pad2 k := fun k hk => absurd (List.all_eq_true.1 (pad2_all k) _ hk) (by decide)
    have np : '/' ∉ padInt 4 y := by
      intro hk
      by_cases hp : PadYear y
      · rw [padInt4_year hp] at hk
        rcases (by omega : y < 0 ∨ 0 ≤ y) with h0 | h0
        · rw [decide_eq_true h0] at hk
          rcases List.mem_cons.1 hk with hk | hk
          · exact absurd hk (by decide)
          · exact absurd (List.all_eq_true.1 (pad4_all _) _ hk) (by decide)
        · rw [decide_eq_false (by omega)] at hk
          exact absurd (List.all_eq_true.1 (pad4_all _) _ hk) (by decide)
      · have h1 : -999 ≤ y ∧ y ≤ -1 := by unfold PadYear at hp; omega
        unfold padInt at hk
        rw [if_pos (by omega)] at hk
        rcases List.mem_cons.1 hk with hk | hk
        · exact absurd hk (by decide)
        · revert hk
          unfold zeroPad
          intro hk
          rcases List.mem_append.1 hk with hk | hk
          · rw [List.mem_replicate] at hk; exact absurd hk.2 (by decide)
          · exact absurd (List.all_eq_true.1 (natDigits_all _) _ hk) (by decide)
    rcases List.mem_append.1 hc with hc | hc
    · exact np hc
    · rcases List.mem_cons.1 hc with hc | hc
      · exact absurd hc (by decide)
      · rcases List.mem_append.1 hc with hc | hc
        · exact nd _ hc
        · rcases List.mem_cons.1 hc with hc | hc
          · exact absurd hc (by decide)
          · exact nd _ hc
  have n1 : y1.natAbs < 10000 := by
    rcases h with h | h
    · omega
    · exact h.1.2
  rw [e, dateSpanFromEDTF_slash (ns n1 _ _) (ns n2 _ _)]
  have short : ∀ {y : Int} (h1 : -999 ≤ y) (h2 : y ≤ -1) (t : Str), ∃ e, halfSpan (padInt 4 y ++ '-' :: t) = .err (Invalid (c! "date") e) := by
    intro y h1 h2 t
    obtain ⟨u, eu, hu⟩ := padInt4_short h1 h2
    refine ⟨'-' :: (u ++ '-' :: t), ?_⟩
    rw [eu, List.cons_append]
    exact halfSpan_short hu (fun c r e => by injection e with e _; subst e; rfl)
  rcases h with h | h
  · obtain ⟨t, ht⟩ := short h.1 h.2 (pad2 m1 ++ '-' :: pad2 1)
    exact ⟨t, by rw [ht]; rfl⟩
  · have hv := dayOf_ok h.1.2 (valid_first (y := y1) a1 b1)
    have ht1 : padInt 4 y1 ++ '-' :: (pad2 m1 ++ '-' :: pad2 1) = (Side.date (dayOf y1 m1 1)).text := by
      show _ = (dayOf y1 m1 1).text
      rw [dayOf_text h.1 (by omega) (by omega), padInt_two_chars (k := m1) (by omega), padInt_two_chars (k := 1) (by omega)]
      simp
    obtain ⟨e1, e2, a, b, hh, -⟩ := halfSpan_side (x := .date (dayOf y1 m1 1)) hv
    obtain ⟨t, ht⟩ := short h.2.1 h.2.2 (pad2 m2 ++ '-' :: pad2 d)
    exact ⟨t, by rw [ht1, hh, ht]; rfl⟩

theorem daysInMonth_ok {y : Int} {m : Nat} (hy : y.natAbs < 10000) (h1 : 1 ≤ m) (h2 : m ≤ 12) : daysInMonth y m = .ok (monthLen y m : Int) :=
  daysInMonth_eq hy h1 h2

theorem parse_prefix_err {neg : Bool} {n m m1 m2 : Nat} (hn : n < 10000) (hm : SeasonNum m) {rest : Str} {y1 y2 : Int}
    (h0 : L0.isLevel0 (yearStr neg n ++ '-' :: (pad2 m ++ rest)) = false)
    (h1 : L1.isLevel1 (yearStr neg n ++ '-' :: (pad2 m ++ rest)) = true)
    (hs : numSpan (if neg then -(n : Int) else n) m = ⟨y1, m1, y2, m2⟩)
    (h : (-999 ≤ y1 ∧ y1 ≤ -1) ∨ (PadYear y1 ∧ -999 ≤ y2 ∧ y2 ≤ -1)) (n2 : y2.natAbs < 10000)
    (a1 : 1 ≤ m1) (b1 : m1 ≤ 12) (a2 : 1 ≤ m2) (b2 : m2 ≤ 12) :
    ∃ t, parseString (yearStr neg n ++ '-' :: (pad2 m ++ rest)) = .err (Invalid (c! "date") t) := by
  have hl := monthLen_pos y2 m2
  obtain ⟨t, ht⟩ := span_short h a1 b1 a2 b2 (dm := (monthLen y2 m2 : Int)) (by omega) n2
  refine ⟨t, ?_⟩
  rw [parse_prefix hn hm h0 h1, (season_num hn hm rest).2, hs]
  show (do
      let dm ← daysInMonth y2 m2
      let sp ← dateSpanFromEDTF (L1.seasonString ⟨y1, m1, y2, m2⟩ dm)
      Res.ok (mkEDTF sp (yearStr neg n ++ '-' :: (pad2 m ++ rest)) 1 L1.SEASON)) = _
  rw [daysInMonth_ok n2 a2 b2, Res.ok_bind, ht]
  rfl

theorem date0_year (neg : Bool) (n : Nat) : (⟨neg, n, .none⟩ : Date0).text = yearStr neg n := by simp [date0_text]

theorem numSpan_month {y : Int} {m : Nat} (h1 : 1 ≤ m) (h2 : m ≤ 12) : numSpan y m = ⟨y, m, y, m⟩ := by
  unfold numSpan
  rw [if_neg (by omega), if_neg (by omega), if_neg (by omega), if_neg (by omega)]

/-- The text of a date that has a month. -/
theorem date0_month_text {x : Date0} {m : Nat} (h : x.first.1 = m) (ht : x.tail ≠ .none) :
    ∃ r, (∀ t, x.text ++ t = yearStr x.neg x.year ++ '-' :: (pad2 m ++ (r ++ t))) := by
  obtain ⟨neg, n, t⟩ := x
  cases t with
  | none => exact absurd rfl ht
  | month m' => simp only [Date0.first] at h; subst h; exact ⟨[], fun t => by simp [date0_text]⟩
  | day m' d => simp only [Date0.first] at h; subst h; exact ⟨'-' :: pad2 d, fun t => by simp [date0_text]⟩

theorem date0_first_month {x : Date0} (h : x.ok) : 1 ≤ x.first.1 ∧ x.first.1 ≤ 12 := by
  have := Date0.valid_first h
  exact ⟨this.1, this.2.1⟩

/-- A level 1 text made of a date with a month and something after it is taken
as a season: the whole month, whatever follows. -/
theorem date_then (hf : DayCount f) {x : Date0} (hx : x.ok) (ht : x.tail ≠ .none) {t : Str}
    (h0 : L0.isLevel0 (x.text ++ t) = false) (h1 : L1.isLevel1 (x.text ++ t) = true) :
    (PadYear x.value → parseString (x.text ++ t) = .ok (monthsResult f (x.text ++ t) 1 (c! "Seasons") x.value x.first.1 x.value x.first.1)) ∧
    (¬ PadYear x.value → ∃ e, parseString (x.text ++ t) = .err (Invalid (c! "date") e)) := by
  obtain ⟨r, hr⟩ := date0_month_text (x := x) rfl ht
  obtain ⟨m1, m2⟩ := date0_first_month hx
  have hv := Date0.value_lt hx
  have hs : numSpan (if x.neg then -(x.year : Int) else x.year) x.first.1 = ⟨x.value, x.first.1, x.value, x.first.1⟩ := numSpan_month m1 m2
  rw [hr t] at h0 h1 ⊢
  constructor
  · intro hp
    exact parse_prefix_ok hf hx.1 (Or.inl ⟨m1, m2⟩) h0 h1 hs hp hp m1 m2 m1 m2
  · intro hp
    exact parse_prefix_err hx.1 (Or.inl ⟨m1, m2⟩) h0 h1 hs (Or.inl (by unfold PadYear at hp; omega)) hv m1 m2 m1 m2

/-! ### C16 -/

theorem isQ_mem {q : Char} (h : q = '?' ∨ q = '~' ∨ q = '%') : isQ q = true := by rcases h with rfl | rfl | rfl <;> rfl

theorem lang_qualified {x : Date0} (hx : x.ok) {q : Char} (h : q = '?' ∨ q = '~' ∨ q = '%') : Lang (Rx.qualifiedDate 1) (x.text ++ [q]) := by
  refine lang_cat.2 ⟨_, _, rfl, lang_date_text hx, ?_⟩
  rcases h with rfl | rfl | rfl
  · exact Or.inl (lang_lit.2 rfl)
  · exact Or.inr (Or.inl (lang_lit.2 rfl))
  · exact Or.inr (Or.inr (lang_lit.2 rfl))

theorem qualified_level {x : Date0} (hx : x.ok) {q : Char} (h : q = '?' ∨ q = '~' ∨ q = '%') :
    L0.isLevel0 (x.text ++ [q]) = false ∧ L1.isLevel1 (x.text ++ [q]) = true := by
  constructor
  · refine not_level0_of (c := q) (by simp) ?_ ?_
    · rcases h with rfl | rfl | rfl <;> rfl
    · rcases h with rfl | rfl | rfl <;> decide
  · exact isLevel1_iff.2 (Or.inr (Or.inr (Or.inr (Or.inl (lang_qualified hx h)))))

/-- C16, full statement for years: a qualifier after a year leaves the bounds
alone and marks the year uncertain and/or approximate. -/
theorem C16_year_partial (hf : DayCount f) (neg : Bool) {n : Nat} (hn : n < 10000) {q : Char} (hq : q = '?' ∨ q = '~' ∨ q = '%') :
    parseString ((⟨neg, n, .none⟩ : Date0).text ++ [q]) = .ok
      ((⟨neg, n, .none⟩ : Date0).result f ((⟨neg, n, .none⟩ : Date0).text ++ [q]) ((⟨neg, n, .none⟩ : Date0).text ++ [q]) 1
        (c! "Qualification of a date (complete)")
        (if q = '?' ∨ q = '%' then Prec.YEAR else 0) (if q = '~' ∨ q = '%' then Prec.YEAR else 0)) := by
  have hx : (⟨neg, n, .none⟩ : Date0).ok := ⟨hn, trivial⟩
  obtain ⟨h0, h1⟩ := qualified_level hx hq
  have hqd := isQualifiedDate_iff.2 (lang_qualified hx hq)
  have e : (⟨neg, n, .none⟩ : Date0).text ++ [q] = (⟨neg, n, .none⟩ : Date0).qtext (.right q) .none .none := by
    simp [Date0.text, Date0.qtext, Deco.text]
  have hns : '/' ∉ (⟨neg, n, .none⟩ : Date0).text ++ [q] := by
    intro hc
    rcases List.mem_append.1 hc with hc | hc
    · exact date0_not_mem _ (by decide) (by decide) hc
    · rcases hq with rfl | rfl | rfl <;> exact absurd hc (by decide)
  have hsea : L1.isSeason ((⟨neg, n, .none⟩ : Date0).text ++ [q]) = false := by
    rw [date0_year]
    refine year_not_season ?_ ?_
    · rintro u e; injection e with e _; rcases hq with rfl | rfl | rfl <;> exact absurd e (by decide)
    · rcases hq with rfl | rfl | rfl <;> decide
  rw [parse_level1 h0 h1]
  unfold L1.parseString
  rw [date0_year, not_letter_year, ← date0_year, hsea, hqd]
  simp only [Bool.false_eq_true, if_false, if_true]
  unfold L1.parseQualifiedDate
  rw [show Rx.QualifiedDate.matchString _ = true from hqd]
  simp only [Bool.not_true, Bool.false_eq_true, if_false]
  rw [dateSpanFromEDTF_noSlash hns, e, dateSpan_date0 hx (qy := .right q) (qm := .none) (qd := .none) ⟨isQ_mem hq, rfl, rfl, by simp⟩, Res.ok_bind,
    spanRec_result hf hx]
  have : marked saysUncertain (.right q) .none .none = (if q = '?' ∨ q = '%' then Prec.YEAR else 0) ∧
      marked saysApproximate (.right q) .none .none = (if q = '~' ∨ q = '%' then Prec.YEAR else 0) := by
    rcases hq with rfl | rfl | rfl <;> decide
  rw [this.1, this.2]
  rfl

example : (⟨false, 1984, .none⟩ : Date0).text ++ ['?'] = c! "1984?" := by decide

/-- C16 with a month or a day: the result is that of a season, namely the
whole month without any flag.  (Years -999 to -1: an error.) -/
theorem C16_month_or_day_partial (hf : DayCount f) {x : Date0} (hx : x.ok) (ht : x.tail ≠ .none) {q : Char} (hq : q = '?' ∨ q = '~' ∨ q = '%') :
    ((0 ≤ x.value ∨ x.value ≤ -1000) → parseString (x.text ++ [q]) = .ok
      (monthsResult f (x.text ++ [q]) 1 (c! "Seasons") x.value x.first.1 x.value x.first.1)) ∧
    (-999 ≤ x.value ∧ x.value ≤ -1 → ∃ e, parseString (x.text ++ [q]) = .err (Invalid (c! "date") e)) := by
  obtain ⟨h0, h1⟩ := qualified_level hx hq
  have hv := Date0.value_lt hx
  obtain ⟨k1, k2⟩ := date_then hf hx ht h0 h1
  exact ⟨fun h => k1 ⟨h, hv⟩, fun h => k2 (fun hp => by unfold PadYear at hp; omega)⟩

example : (⟨false, 2004, .day 6 11⟩ : Date0).ok ∧ (⟨false, 2004, .day 6 11⟩ : Date0).text ++ ['%'] = c! "2004-06-11%" := by decide

/-- C16 does not hold for months and days: "2004-06~" has no flags, and
"2004-06-11%" denotes the whole of June. -/
theorem C16_negation :
    (∃ d b, parseString (c! "2004-06~") = .ok d ∧ d.feature = c! "Seasons" ∧ d.start.bind (·.lower) = some b ∧ b.approximate = 0 ∧ b.uncertain = 0) ∧
    (∃ d lo up, parseString (c! "2004-06-11%") = .ok d ∧ d.lower = .ok lo ∧ d.upper = .ok up ∧ up - lo = 30 * 86400 - 1) := by
  refine ⟨⟨_, _, rfl, rfl, rfl, rfl, rfl⟩, ?_⟩
  have h := (C16_month_or_day_partial dayCount_unixDay (x := ⟨false, 2004, .day 6 11⟩) (by decide) (by decide) (q := '%') (by decide)).1 (by decide)
  have b := monthsResult_bounds (f := U) ((⟨false, 2004, .day 6 11⟩ : Date0).text ++ ['%']) 1 (c! "Seasons") 2004 6 2004 6
  exact ⟨_, _, _, h, b.1, b.2, by decide +kernel⟩

/-! ### C17 -/

theorem slash_split {a b a' b' : Str} (h : '/' ∉ a) (h' : '/' ∉ a') (e : a ++ '/' :: b = a' ++ '/' :: b') : a = a' ∧ b = b' := by
  induction a generalizing a' with
  | nil =>
    cases a' with
    | nil => simpa using e
    | cons c a' => injection e with e _; exact absurd (by simp [← e]) h'
  | cons c a ih =>
    cases a' with
    | nil => injection e with e _; exact absurd (by simp [e]) h
    | cons c' a' =>
      injection e with e1 e2
      obtain ⟨r1, r2⟩ := ih (fun hm => h (List.mem_cons_of_mem _ hm)) (fun hm => h' (List.mem_cons_of_mem _ hm)) e2
      exact ⟨by rw [e1, r1], r2⟩

theorem date0_slash (x : Date0) : '/' ∉ x.text := date0_not_mem x (by decide) (by decide)

/-- A text with one slash is level 0 only with dates on both sides. -/
theorem not_level0_side {a b : Str} (ha : '/' ∉ a) (h : a = [] ∨ b = []) : L0.isLevel0 (a ++ '/' :: b) = false := by
  have hm : '/' ∈ a ++ '/' :: b := by simp
  rw [isLevel0_iff, isDate_false_of_slash hm, isDateAndTime_false_of_slash hm]
  cases ht : L0.isTimeInterval (a ++ '/' :: b) with
  | false => rfl
  | true =>
    exfalso
    obtain ⟨x, y, -, -, e⟩ := isTimeInterval_iff.1 ht
    obtain ⟨e1, e2⟩ := slash_split ha (date0_slash x) e
    rcases h with h | h
    · exact date0_ne_nil x (by rw [← e1, h])
    · exact date0_ne_nil y (by rw [← e2, h])

theorem not_qualified {s : Str} (h : ∀ c ∈ ['?', '~', '%'], c ∉ s) : L1.isQualifiedDate s = false := by
  cases hs : L1.isQualifiedDate s with
  | false => rfl
  | true => exact absurd (isQualifiedDate_iff.1 hs) (not_lang_of_must ['?', '~', '%'] (by decide) h)

theorem not_unspecified {s : Str} (h : '/' ∈ s) : L1.isUnspecifiedDigits s = false ∧ L1.isNegativeCalendarYear s = false := by
  constructor
  · cases hs : L1.isUnspecifiedDigits s with
    | false => rfl
    | true => exact absurd (isUnspecifiedDigits_iff.1 hs) (not_lang_of_char (c := '/') (by decide) h)
  · cases hs : L1.isNegativeCalendarYear s with
    | false => rfl
    | true => exact absurd (isNegativeYear_iff.1 hs) (not_lang_of_char (c := '/') (by decide) h)

/-- An interval text reaches the extended interval parser unless it is a season. -/
theorem parse_extended {l r : Side} (h0 : L0.isLevel0 (l.text ++ '/' :: r.text) = false) (h1 : L1.isLevel1 (l.text ++ '/' :: r.text) = true)
    (hs : L1.isSeason (l.text ++ '/' :: r.text) = false) :
    parseString (l.text ++ '/' :: r.text) = L1.parseExtendedInterval (l.text ++ '/' :: r.text) := by
  have chars : ∀ {x : Side} {c : Char}, c ∈ x.text → isDig c = true ∨ c = '-' ∨ c = '.' := by
    intro x c hc
    cases x with
    | opened => right; right; simpa [Side.text] using hc
    | unknown => cases hc
    | date x => rcases date0_chars hc with h | h; exact Or.inl h; exact Or.inr (Or.inl h)
  have nm : ∀ {c : Char}, isDig c = false → c ≠ '-' → c ≠ '.' → c ≠ '/' → c ∉ l.text ++ '/' :: r.text := by
    intro c k1 k2 k3 k4 hm
    rcases List.mem_append.1 hm with hm | hm
    · rcases chars hm with h | h | h
      · rw [k1] at h; cases h
      · exact k2 h
      · exact k3 h
    · rcases List.mem_cons.1 hm with h | hm
      · exact k4 h
      · rcases chars hm with h | h | h
        · rw [k1] at h; cases h
        · exact k2 h
        · exact k3 h
  rw [parse_level1 h0 h1]
  unfold L1.parseString
  have hu := not_unspecified (s := l.text ++ '/' :: r.text) (by simp)
  rw [not_letter (nm (by decide) (by decide) (by decide) (by decide)), hs, not_qualified, hu.1, hu.2, isExtendedInterval_true]
  · rfl
  · intro c hc
    simp only [List.mem_cons, List.not_mem_nil, or_false] at hc
    rcases hc with rfl | rfl | rfl <;> exact nm (by decide) (by decide) (by decide) (by decide)

/-- The result for two sides. -/
theorem extended_result (hf : DayCount f) {l r : Side} (hl : l.ok) (hr : r.ok) (s : Str) (lv : Int) (ft : Str) :
    (do let sp ← dateSpanFromEDTF (l.text ++ '/' :: r.text); Res.ok (mkEDTF sp s lv ft)) =
      .ok ⟨some (l.range f), some (r.range f), s, lv, ft⟩ := by
  rw [span_sides hl hr, side_congr hf hl, side_congr hf hr]
  rfl

theorem lang_intervalStart {l : Side} {x : Date0} (hx : x.ok) (hl : l = .opened ∨ l = .unknown) : Lang (Rx.intervalStart 1) (l.text ++ '/' :: x.text) := by
  refine lang_cat.2 ⟨l.text, '/' :: x.text, rfl, ?_, lang_cat.2 ⟨['/'], x.text, rfl, lang_lit.2 rfl, lang_date_text hx⟩⟩
  rcases hl with rfl | rfl
  · exact Or.inr ⟨['.'], ['.'], rfl, lang_lit.2 rfl, lang_lit.2 rfl⟩
  · exact Or.inl rfl

theorem lang_intervalEnd {r : Side} {x : Date0} (hx : x.ok) (hr : r = .opened ∨ r = .unknown) : Lang (Rx.intervalEnd 1) (x.text ++ '/' :: r.text) := by
  refine lang_cat.2 ⟨x.text, '/' :: r.text, rfl, lang_date_text hx, lang_cat.2 ⟨['/'], r.text, rfl, lang_lit.2 rfl, ?_⟩⟩
  rcases hr with rfl | rfl
  · exact Or.inr ⟨['.'], ['.'], rfl, lang_lit.2 rfl, lang_lit.2 rfl⟩
  · exact Or.inl rfl

theorem side_not_level0 {l r : Side} (h : (l = .opened ∨ l = .unknown) ∨ (r = .opened ∨ r = .unknown)) : L0.isLevel0 (l.text ++ '/' :: r.text) = false := by
  rcases h with (rfl | rfl) | (rfl | rfl)
  · exact not_level0_of (c := '.') (by simp [Side.text]) (by decide) (by decide)
  · exact not_level0_side (side_slash _) (Or.inl rfl)
  · exact not_level0_of (c := '.') (by simp [Side.text]) (by decide) (by decide)
  · exact not_level0_side (side_slash _) (Or.inr rfl)

/-- C17, for the start side: '../D' and '/D' for every existing date D.  The
start range has no time and is open or unknown; the end range is that of D. -/
theorem C17_start (hf : DayCount f) {l : Side} (hl : l = .opened ∨ l = .unknown) {x : Date0} (hx : x.ok) :
    parseString (l.text ++ '/' :: x.text) = .ok
      { start := some (l.range f)
        stop := some (x.range f x.text 0 0 Prec.YEAR)
        edtf := l.text ++ '/' :: x.text
        level := 1
        feature := c! "Extended Interval (Start)" } := by
  have h0 := side_not_level0 (l := l) (r := .date x) (Or.inl hl)
  have hs := lang_intervalStart hx hl
  have h1 : L1.isLevel1 (l.text ++ '/' :: x.text) = true := isLevel1_iff.2 (Or.inr (Or.inr (Or.inr (Or.inr (Or.inr (Or.inl hs))))))
  have hse : L1.isSeason (l.text ++ '/' :: x.text) = false := by
    refine not_season_char (fun neg n rest e u hr => ?_) ?_
    · have hd := isDig_dig (n / 1000)
      rcases hl with rfl | rfl <;> cases neg <;> injection e with e _ <;> first | exact absurd e (by decide) | (rw [← e] at hd; exact absurd hd (by decide))
    · intro hm
      rcases List.mem_append.1 hm with hm | hm
      · rcases hl with rfl | rfl <;> exact absurd hm (by decide)
      · rcases List.mem_cons.1 hm with hm | hm
        · exact absurd hm (by decide)
        · exact date0_not_mem x (by decide) (by decide) hm
  have e := parse_extended (l := l) (r := .date x) h0 h1 hse
  have e2 : L1.parseExtendedInterval (l.text ++ '/' :: (Side.date x).text) = (do
      let sp ← dateSpanFromEDTF (l.text ++ '/' :: (Side.date x).text)
      Res.ok (mkEDTF sp (l.text ++ '/' :: (Side.date x).text) 1 L1.EXTENDED_INTERVAL_START)) := by
    have hm : Rx.IntervalStart.matchString (l.text ++ '/' :: (Side.date x).text) = true := isIntervalStart_iff.2 hs
    unfold L1.parseExtendedInterval L1.parseExtendedIntervalStart
    rw [hm]
    rfl
  have hlo : l.ok := by rcases hl with rfl | rfl <;> trivial
  rw [e2, extended_result hf hlo (r := .date x) hx] at e
  exact e

example : (Side.opened).text ++ '/' :: (⟨false, 1985, .day 4 12⟩ : Date0).text = c! "../1985-04-12" ∧ (⟨false, 1985, .day 4 12⟩ : Date0).ok := by decide
example : (Side.unknown).text ++ '/' :: (⟨false, 1985, .none⟩ : Date0).text = c! "/1985" := by decide

/-- C17, for the end side: 'D/..' and 'D/' for a year D. -/
theorem C17_end_year_partial (hf : DayCount f) {r : Side} (hr : r = .opened ∨ r = .unknown) {x : Date0} (hx : x.ok) (hn : x.tail = .none) :
    parseString (x.text ++ '/' :: r.text) = .ok
      { start := some (x.range f x.text 0 0 Prec.YEAR)
        stop := some (r.range f)
        edtf := x.text ++ '/' :: r.text
        level := 1
        feature := c! "Extended Interval (End)" } := by
  have h0 := side_not_level0 (l := .date x) (r := r) (Or.inr hr)
  have hs := lang_intervalEnd hx hr
  have h1 : L1.isLevel1 (x.text ++ '/' :: r.text) = true := isLevel1_iff.2 (Or.inr (Or.inr (Or.inr (Or.inr (Or.inr (Or.inr (Or.inl hs)))))))
  have hse : L1.isSeason (x.text ++ '/' :: r.text) = false := by
    obtain ⟨neg, n, t⟩ := x
    simp only at hn; subst hn
    rw [date0_year]
    refine year_not_season (fun u e => by injection e with e _; exact absurd e (by decide)) ?_
    rcases hr with rfl | rfl <;> decide
  have e := parse_extended (l := .date x) (r := r) h0 h1 hse
  have hnot : Rx.IntervalStart.matchString ((Side.date x).text ++ '/' :: r.text) = false := by
    cases hm : Rx.IntervalStart.matchString ((Side.date x).text ++ '/' :: r.text) with
    | false => rfl
    | true =>
      exfalso
      obtain ⟨u, v, e, hu, hv⟩ := lang_cat.1 (isIntervalStart_iff.1 hm)
      obtain ⟨u', v', rfl, hu', -⟩ := lang_cat.1 hv
      rw [lang_lit.1 hu'] at e
      rcases hu with rfl | ⟨a, b, rfl, ha, hb⟩
      · exact date0_ne_nil x (slash_split (side_slash (.date x)) (by simp) e).1
      · rw [lang_lit.1 ha, lang_lit.1 hb] at e
        exact date0_ne_open x (slash_split (side_slash (.date x)) (by decide) e).1
  have e2 : L1.parseExtendedInterval ((Side.date x).text ++ '/' :: r.text) = (do
      let sp ← dateSpanFromEDTF ((Side.date x).text ++ '/' :: r.text)
      Res.ok (mkEDTF sp ((Side.date x).text ++ '/' :: r.text) 1 L1.EXTENDED_INTERVAL_END)) := by
    have hm : Rx.IntervalEnd.matchString ((Side.date x).text ++ '/' :: r.text) = true := isIntervalEnd_iff.2 hs
    unfold L1.parseExtendedInterval L1.parseExtendedIntervalEnd
    rw [hm, hnot]
    rfl
  have hro : r.ok := by rcases hr with rfl | rfl <;> trivial
  rw [e2, extended_result hf (l := .date x) hx hro] at e
  exact e

example : (⟨true, 44, .none⟩ : Date0).text ++ '/' :: (Side.opened).text = c! "-0044/.." := by decide

/-- C17 with a month or day before the slash: the whole month, with neither side open or unknown. -/
theorem C17_end_month_or_day_partial (hf : DayCount f) {r : Side} (hr : r = .opened ∨ r = .unknown) {x : Date0} (hx : x.ok) (ht : x.tail ≠ .none) :
    ((0 ≤ x.value ∨ x.value ≤ -1000) → parseString (x.text ++ '/' :: r.text) = .ok
      (monthsResult f (x.text ++ '/' :: r.text) 1 (c! "Seasons") x.value x.first.1 x.value x.first.1)) ∧
    (-999 ≤ x.value ∧ x.value ≤ -1 → ∃ e, parseString (x.text ++ '/' :: r.text) = .err (Invalid (c! "date") e)) := by
  have h0 := side_not_level0 (l := .date x) (r := r) (Or.inr hr)
  have hs := lang_intervalEnd hx hr
  have h1 : L1.isLevel1 (x.text ++ '/' :: r.text) = true := isLevel1_iff.2 (Or.inr (Or.inr (Or.inr (Or.inr (Or.inr (Or.inr (Or.inl hs)))))))
  have hv := Date0.value_lt hx
  obtain ⟨k1, k2⟩ := date_then hf hx ht h0 h1
  exact ⟨fun h => k1 ⟨h, hv⟩, fun h => k2 (fun hp => by unfold PadYear at hp; omega)⟩

example : (⟨false, 1985, .day 4 12⟩ : Date0).ok ∧ (⟨false, 1985, .day 4 12⟩ : Date0).tail ≠ .none ∧
    (⟨false, 1985, .day 4 12⟩ : Date0).text ++ '/' :: Side.unknown.text = c! "1985-04-12/" := by decide

/-- C17 does not hold for "1985-04-12/..": its end is neither open nor unknown. -/
theorem C17_negation : ∃ d b, parseString (c! "1985-04-12/..") = .ok d ∧ d.stop.bind (·.upper) = some b ∧ b.isOpen = false ∧ b.unknown = false ∧
    d.feature = c! "Seasons" ∧ b.ymd = some ⟨1985, 4, 30⟩ :=
  ⟨_, _, rfl, rfl, rfl, rfl, rfl, rfl⟩

/-! ### C18 -/

theorem season_code (z : Season) : SeasonNum z.code ∧ z.code < 100 ∧ ¬ (z.code ≤ 12) := by cases z <;> (refine ⟨Or.inr ?_, ?_, ?_⟩ <;> decide)

theorem numSpan_season (y : Int) (z : Season) : numSpan y z.code = ⟨y, z.firstMonth, z.lastYear y, z.lastMonth⟩ := by cases z <;> rfl

theorem season_months (z : Season) : 1 ≤ z.firstMonth ∧ z.firstMonth ≤ 12 ∧ 1 ≤ z.lastMonth ∧ z.lastMonth ≤ 12 := by cases z <;> decide

theorem no_slash_level0 {s : Str} (h1 : '/' ∉ s) (h2 : 'T' ∉ s) (h3 : L0.isDate s = false) : L0.isLevel0 s = false := by
  rw [isLevel0_iff, h3]
  have h4 : L0.isDateAndTime s = false := by
    cases hs : L0.isDateAndTime s with
    | false => rfl
    | true =>
      have : Lang (Rx.dateAndTime 1) s := (matchString_anch _ (by decide) s).1 hs
      exact absurd this (not_lang_of_must ['T'] (by decide) (by simpa using h2))
  have h5 : L0.isTimeInterval s = false := by
    cases hs : L0.isTimeInterval s with
    | false => rfl
    | true =>
      obtain ⟨a, b, -, -, rfl⟩ := isTimeInterval_iff.1 hs
      exact absurd (by simp) h1
  rw [h4, h5]; rfl

theorem yearStr_not_mem (neg : Bool) (n : Nat) {c : Char} (h1 : isDig c = false) (h2 : c ≠ '-') : c ∉ yearStr neg n := by
  rw [← date0_year]; exact date0_not_mem _ h1 h2

theorem pad2_not_mem (n : Nat) {c : Char} (h1 : isDig c = false) : c ∉ pad2 n := digits_not_mem (pad2_all n) h1

/-- A year and a two-digit number above 12 are not a level 0 text. -/
theorem number_not_level0 (neg : Bool) (n : Nat) {m : Nat} (hm : m < 100) (h12 : ¬ (m ≤ 12)) : L0.isLevel0 (yearStr neg n ++ '-' :: pad2 m) = false := by
  have nm : ∀ {c : Char}, isDig c = false → c ≠ '-' → c ∉ yearStr neg n ++ '-' :: pad2 m := by
    intro c h1 h2 hc
    rcases List.mem_append.1 hc with hc | hc
    · exact yearStr_not_mem neg n h1 h2 hc
    · rcases List.mem_cons.1 hc with hc | hc
      · exact h2 hc
      · exact pad2_not_mem m h1 hc
  refine no_slash_level0 (nm (by decide) (by decide)) (nm (by decide) (by decide)) ?_
  cases hs : L0.isDate (yearStr neg n ++ '-' :: pad2 m) with
  | false => rfl
  | true =>
    exfalso
    obtain ⟨⟨neg', n', t⟩, -, hsh, e⟩ := isDate_iff.1 hs
    rw [date0_text] at e
    obtain ⟨-, e⟩ := yearStr_append e
    cases t with
    | none => cases e
    | month m' =>
      injection e with _ e
      have hsh : 1 ≤ m' ∧ m' ≤ 12 := hsh
      have := pad2_inj hm (by omega) e
      omega
    | day m' d =>
      injection e with _ e
      have := congrArg List.length e
      simp [pad2] at this

/-- C18, numeric form, exactly: the months of the season, for every year for
which the year in which it ends also prints with four digits; otherwise an error.
(Winter ends in the following year: it fails for 9999 and -1000.) -/
theorem C18_numeric_partial (hf : DayCount f) (neg : Bool) {n : Nat} (hn : n < 10000) (z : Season) {y : Int} (hy : y = if neg then -(n : Int) else n) :
    ((0 ≤ y ∨ y ≤ -1000) → (z = .winter → y ≠ 9999 ∧ y ≠ -1000) →
      parseString ((if neg then '-' :: pad4 n else pad4 n) ++ '-' :: pad2 z.code) = .ok
        (monthsResult f ((if neg then '-' :: pad4 n else pad4 n) ++ '-' :: pad2 z.code) 1 (c! "Seasons")
          y z.firstMonth (z.lastYear y) z.lastMonth)) ∧
    ((-999 ≤ y ∧ y ≤ -1) ∨ (z = .winter ∧ (y = 9999 ∨ y = -1000)) →
      ∃ e, parseString ((if neg then '-' :: pad4 n else pad4 n) ++ '-' :: pad2 z.code) = .err e) := by
  show (_ → _ → parseString (yearStr neg n ++ '-' :: pad2 z.code) = .ok (monthsResult f (yearStr neg n ++ '-' :: pad2 z.code) _ _ _ _ _ _)) ∧
    (_ → ∃ e, parseString (yearStr neg n ++ '-' :: pad2 z.code) = .err e)
  obtain ⟨c1, c2, c3⟩ := season_code z
  obtain ⟨a1, b1, a2, b2⟩ := season_months z
  have h0 : L0.isLevel0 (yearStr neg n ++ '-' :: (pad2 z.code ++ [])) = false := by
    rw [List.append_nil]; exact number_not_level0 neg n c2 c3
  have h1 : L1.isLevel1 (yearStr neg n ++ '-' :: (pad2 z.code ++ [])) = true := by
    rw [List.append_nil]
    refine isLevel1_iff.2 (Or.inr (Or.inl ?_))
    exact lang_cat.2 ⟨_, _, rfl, lang_year4'.2 ⟨neg, n, hn, rfl⟩, lang_cat.2 ⟨['-'], _, rfl, lang_lit.2 rfl, lang_seasonCode.2 ⟨_, c2, c1, rfl⟩⟩⟩
  have hs := numSpan_season (if neg then -(n : Int) else n) z
  rw [← hy] at hs
  have hya : y.natAbs < 10000 := by subst hy; split <;> omega
  have hly : z.lastYear y = y ∨ (z = .winter ∧ z.lastYear y = y + 1) := by cases z <;> simp [Season.lastYear]
  rw [show '-' :: pad2 z.code = '-' :: (pad2 z.code ++ []) by rw [List.append_nil]]
  constructor
  · intro k1 k2
    refine parse_prefix_ok hf hn c1 h0 h1 (by rw [← hy]; exact hs) ⟨k1, hya⟩ ?_ a1 b1 a2 b2
    rcases hly with h | ⟨hz, h⟩
    · rw [h]; exact ⟨k1, hya⟩
    · rw [h]
      have := k2 hz
      unfold PadYear
      omega
  · intro h
    by_cases h9 : z = .winter ∧ y = 9999
    · obtain ⟨rfl, rfl⟩ := h9
      rw [parse_prefix hn c1 h0 h1, (season_num hn c1 []).2, ← hy, hs]
      exact ⟨.plain, by
        rw [show daysInMonth (⟨9999, Season.winter.firstMonth, Season.winter.lastYear 9999, Season.winter.lastMonth⟩ : L1.SeasonSpan).end_yyyy
          (⟨9999, Season.winter.firstMonth, Season.winter.lastYear 9999, Season.winter.lastMonth⟩ : L1.SeasonSpan).end_mm = .err .plain by decide +kernel]
        rfl⟩
    · obtain ⟨t, ht⟩ := parse_prefix_err (y1 := y) (y2 := z.lastYear y) hn c1 h0 h1 (by rw [← hy]; exact hs) (by
          rcases h with h | ⟨hz, h | h⟩
          · exact Or.inl h
          · exact absurd ⟨hz, h⟩ h9
          · rcases hly with h' | ⟨-, h'⟩
            · exfalso; rw [hz] at h'; simp [Season.lastYear] at h'; omega
            · exact Or.inr ⟨⟨by omega, hya⟩, by omega⟩) (by
          rcases hly with h' | ⟨hz, h'⟩
          · rw [h']; exact hya
          · rw [h']
            rcases h with h | ⟨_, h | h⟩
            · omega
            · exact absurd ⟨hz, h⟩ h9
            · omega) a1 b1 a2 b2
      exact ⟨_, ht⟩

example : pad4 2001 ++ '-' :: pad2 Season.winter.code = c! "2001-24" ∧ Season.winter.lastYear 2001 = 2002 ∧ Season.winter.lastMonth = 2 := by decide
example : '-' :: pad4 1000 ++ '-' :: pad2 Season.spring.code = c! "-1000-21" := by decide

/-- C18, the bounds: from the first second of the first month to the last
second of the last month, whose length depends on leap years. -/
theorem C18_bounds_partial (hf : DayCount f) (neg : Bool) {n : Nat} (hn : n < 10000) (z : Season) {y : Int} (hy : y = if neg then -(n : Int) else n)
    (h1 : 0 ≤ y ∨ y ≤ -1000) (h2 : z = .winter → y ≠ 9999 ∧ y ≠ -1000) :
    ∃ d, parseString ((if neg then '-' :: pad4 n else pad4 n) ++ '-' :: pad2 z.code) = .ok d ∧
      d.lower = .ok (86400 * f y z.firstMonth 1) ∧
      d.upper = .ok (86400 * f (z.lastYear y) z.lastMonth (monthLen (z.lastYear y) z.lastMonth) + 86399) := by
  refine ⟨_, (C18_numeric_partial hf neg hn z hy).1 h1 h2, ?_⟩
  exact monthsResult_bounds _ _ _ _ _ _ _

example : monthLen (Season.winter.lastYear 2003) Season.winter.lastMonth = 29 := by decide

/-- C18 does not hold for "-1000-24", nor for the years -999 to -1. -/
theorem C18_negation : (∃ e, parseString (c! "-1000-24") = .err e) ∧ (∃ e, parseString (c! "-0500-21") = .err e) := by
  exact ⟨(C18_numeric_partial dayCount_unixDay true (n := 1000) (by omega) .winter rfl).2 (Or.inr ⟨rfl, Or.inr rfl⟩),
    (C18_numeric_partial dayCount_unixDay true (n := 500) (by omega) .spring rfl).2 (Or.inl (by decide))⟩

theorem fold_iff {a c : Char} (ha : isLow a = true) : clsHas true [(a, a)] c = true ↔ c = a ∨ c = Char.ofNat (a.toNat - 32) ∨ (a = 's' ∧ c = '\u017f') := by
  constructor
  · intro h
    have hu := upper_of_fold ha h
    simp only [isLow, Bool.and_eq_true, Nat.ble_eq] at ha
    have hc := capital_toNat ha.1.1 ha.1.2
    unfold upperC at hu
    split at hu
    · rename_i k
      simp only [Bool.and_eq_true, Nat.ble_eq] at k
      left
      have h2 := capital_toNat k.1 k.2
      unfold capital at h2
      rw [hu, hc] at h2
      exact char_eq_of_toNat (by omega)
    · split at hu
      · rename_i k
        right; right
        refine ⟨char_eq_of_toNat ?_, k⟩
        rw [← hu] at hc
        have : ('S' : Char).toNat = 83 := rfl
        have : ('s' : Char).toNat = 115 := rfl
        omega
      · right; left; exact hu
  · rintro (rfl | rfl | ⟨rfl, rfl⟩)
    · exact (low_fold ha).1
    · exact (low_fold ha).2
    · decide

theorem lang_word_iff {v w : Str} (hv : v.all isLow = true) (hne : v ≠ []) : Lang (Rx.word v) w ↔ Folded v w := by
  induction v generalizing w with
  | nil => exact absurd rfl hne
  | cons c v ih =>
    simp only [List.all_cons, Bool.and_eq_true] at hv
    by_cases hv' : v = []
    · subst hv'
      constructor
      · rintro ⟨d, rfl, hd⟩
        exact ⟨rfl, fun p hp => by simp at hp; subst hp; exact (fold_iff hv.1).1 hd⟩
      · rintro ⟨hl, hz⟩
        match w, hl with
        | [d], _ => exact ⟨d, rfl, (fold_iff hv.1).2 (hz (c, d) (by simp))⟩
    · rw [word_cons c v w hv']
      constructor
      · rintro ⟨d, w', rfl, hd, hw⟩
        obtain ⟨k1, k2⟩ := (ih hv.2 hv').1 hw
        refine ⟨by simp [k1], fun p hp => ?_⟩
        rcases List.mem_cons.1 hp with rfl | hp
        · exact (fold_iff hv.1).1 hd
        · exact k2 p hp
      · rintro ⟨hl, hz⟩
        match w, hl with
        | d :: w', hl =>
          exact ⟨d, w', rfl, (fold_iff hv.1).2 (hz (c, d) (by simp)), (ih hv.2 hv').2 ⟨by simpa using hl, fun p hp => hz p (by simp [hp])⟩⟩

theorem lang_seasonText (z : Season) {w t1 t2 : Str} {n : Nat} (hw : Lang (Rx.word z.word) w) (h1 : Blank t1) (h2 : Blank t2) (hn : n < 10000) :
    Lang (Rx.seasonText 3) (w ++ (t1 ++ ',' :: (t2 ++ pad4 n))) := by
  refine lang_cat.2 ⟨w, _, rfl, lang_seasonWord z hw, lang_cat.2 ⟨t1, _, rfl, lang_blanks.2 (blank_iff.1 h1), lang_cat.2 ⟨[','], _, rfl, ?_, 
    lang_cat.2 ⟨t2, _, rfl, lang_blanks.2 (blank_iff.1 h2), lang_four.2 ⟨n, hn, rfl⟩⟩⟩⟩⟩
  exact ⟨',', rfl, by decide⟩

/-- A textual season is read by the season parser. -/
theorem parse_text (z : Season) {w t1 t2 : Str} {n : Nat} (hw : Folded z.word w) (h1 : Blank t1) (h2 : Blank t2) (hn : n < 10000) :
    parseString (w ++ (t1 ++ ',' :: (t2 ++ pad4 n))) = (do
      let dm ← daysInMonth (z.lastYear n) z.lastMonth
      let sp ← dateSpanFromEDTF (L1.seasonString (textSpan n z) dm)
      .ok (mkEDTF sp (w ++ (t1 ++ ',' :: (t2 ++ pad4 n))) 1 L1.SEASON)) := by
  have hw := (lang_word_iff (season_low z).1 (season_low z).2).2 hw
  have h0 : L0.isLevel0 (w ++ (t1 ++ ',' :: (t2 ++ pad4 n))) = false := not_level0_of (c := ',') (by simp) (by decide) (by decide)
  have hl : L1.isLevel1 (w ++ (t1 ++ ',' :: (t2 ++ pad4 n))) = true :=
    isLevel1_iff.2 (Or.inr (Or.inr (Or.inl (lang_seasonText z hw h1 h2 hn))))
  obtain ⟨s1, s2⟩ := season_text z hw h1 h2 hn
  have hnl : L1.isLetterPrefixedCalendarYear (w ++ (t1 ++ ',' :: (t2 ++ pad4 n))) = false := by
    cases hs : L1.isLetterPrefixedCalendarYear (w ++ (t1 ++ ',' :: (t2 ++ pad4 n))) with
    | false => rfl
    | true => exact absurd (isLetter_iff.1 hs) (not_lang_of_char (c := ',') (by decide) (by simp))
  rw [parse_level1 h0 hl]
  unfold L1.parseString
  rw [hnl, s1]
  simp only [Bool.false_eq_true, if_false, if_true]
  rw [s2]

/-- C18, textual form: any capitalisation (and the long s) and white space; the
years 0000-9999, for winter 0000-9998. -/
theorem C18_text (hf : DayCount f) (z : Season) {w t1 t2 : Str} {n : Nat} (hw : Folded z.word w) (h1 : Blank t1) (h2 : Blank t2)
    (hn : n < 10000) (hz : z = .winter → n < 9999) :
    parseString (w ++ (t1 ++ ',' :: (t2 ++ pad4 n))) = .ok
      (monthsResult f (w ++ (t1 ++ ',' :: (t2 ++ pad4 n))) 1 (c! "Seasons") n z.firstMonth (z.lastYear n) z.lastMonth) := by
  obtain ⟨a1, b1, a2, b2⟩ := season_months z
  have hp : PadYear n := ⟨by omega, by omega⟩
  have hp2 : PadYear (z.lastYear n) := by
    have hly : z.lastYear n = n ∨ (z = .winter ∧ z.lastYear n = n + 1) := by cases z <;> simp [Season.lastYear]
    rcases hly with h | ⟨hw, h⟩
    · rw [h]; exact hp
    · rw [h]; have := hz hw; unfold PadYear; omega
  rw [parse_text z hw h1 h2 hn]
  have := span_result hp hp2 a1 b1 a2 b2 (w ++ (t1 ++ ',' :: (t2 ++ pad4 n)))
  rw [monthsResult_congr hf hp.2 hp2.2 a1 b1 a2 b2] at this
  exact this

example : Folded Season.winter.word (c! "wInTeR") ∧ Blank [] ∧ Blank (c! " \t") ∧ c! "wInTeR" ++ ([] ++ ',' :: (c! " \t" ++ pad4 1998)) = c! "wInTeR, \t1998" := by
  refine ⟨?_, by unfold Blank; decide, by unfold Blank; decide, by decide⟩
  unfold Folded
  decide

/-- C18, the winter of 9999 is an error: it ends in a year with five digits. -/
theorem C18_text_last {w t1 t2 : Str} (hw : Folded Season.winter.word w) (h1 : Blank t1) (h2 : Blank t2) :
    parseString (w ++ (t1 ++ ',' :: (t2 ++ pad4 9999))) = .err .plain := by
  rw [parse_text .winter hw h1 h2 (by omega),
    show daysInMonth (Season.winter.lastYear (9999 : Nat)) Season.winter.lastMonth = .err .plain by decide +kernel]
  rfl

example : Folded Season.winter.word (c! "WINTER") ∧ Blank (c! " ") ∧ c! "WINTER" ++ (c! " " ++ ',' :: (c! "" ++ pad4 9999)) = c! "WINTER ,9999" := by decide

example : Folded Season.fall.word (c! "Fall") ∧ Blank (c! "") ∧ Blank (c! " ") ∧ c! "Fall" ++ (c! "" ++ ',' :: (c! " " ++ pad4 2019)) = c! "Fall, 2019" := by decide

/-! ### C22 -/

/-- Digits, in the sense of the specification. -/
theorem all_dig {ds : List Nat} (h : ∀ d ∈ ds, d < 10) : (ds.map dig).all isDig = true := by
  rw [List.all_eq_true]
  intro c hc
  obtain ⟨d, hd, rfl⟩ := List.mem_map.1 hc
  exact isDig_dig_lt d (h d hd)

theorem star_digits {w : Str} (h : w.all isDig = true) : Star (Lang Rx.digit) w := by
  induction w with
  | nil => exact Star.nil
  | cons c w ih =>
    simp only [List.all_cons, Bool.and_eq_true] at h
    exact Star.cons [c] w (lang_digit.2 ⟨c, rfl, h.1⟩) (by simp) (ih h.2)

theorem lang_signed {neg : Bool} {w : Str} (h : w.all isDig = true) (h0 : w ≠ []) : Lang (.opt (Rx.lit '-') ⬝ .plus Rx.digit) (sgn neg w) := by
  obtain ⟨c, w', rfl⟩ := List.exists_cons_of_ne_nil h0
  simp only [List.all_cons, Bool.and_eq_true] at h
  have : Lang (.plus Rx.digit) (c :: w') := ⟨[c], w', rfl, lang_digit.2 ⟨c, rfl, h.1⟩, star_digits h.2⟩
  cases neg
  · exact lang_cat.2 ⟨[], _, rfl, Or.inl rfl, this⟩
  · exact lang_cat.2 ⟨['-'], _, rfl, Or.inr (lang_lit.2 rfl), this⟩

theorem parse_letter {neg : Bool} {w : Str} (h : w.all isDig = true) (h0 : w ≠ []) :
    parseString ('Y' :: sgn neg w) =
      (if w.length > 4 then .err (Unsupported L1.LETTER_PREFIXED_CALENDAR_YEAR ('Y' :: sgn neg w))
       else do
        let sp ← dateSpanFromEDTF (sgn neg w)
        .ok (mkEDTF sp ('Y' :: sgn neg w) 1 L1.LETTER_PREFIXED_CALENDAR_YEAR)) := by
  have hl : Lang (Rx.letterPrefixed 1) ('Y' :: sgn neg w) := lang_cat.2 ⟨['Y'], _, rfl, lang_lit.2 rfl, lang_signed h h0⟩
  have hm := isLetter_iff.2 hl
  have h0' : L0.isLevel0 ('Y' :: sgn neg w) = false := not_level0_of (c := 'Y') (by simp) (by decide) (by decide)
  rw [parse_level1 h0' (isLevel1_iff.2 (Or.inl hl))]
  unfold L1.parseString
  rw [hm, if_pos rfl]
  unfold L1.parseLetterPrefixedCalendarYear
  have hsome : (Rx.LetterPrefixedCalendarYear.submatch ('Y' :: sgn neg w)).isSome = true := by rw [isSome_submatch]; exact hm
  obtain ⟨m, em⟩ := Option.isSome_iff_exists.1 hsome
  rw [em]
  have e := (letter_caps em).1
  injection e with _ e
  simp only [← e]
  obtain ⟨c, w', rfl⟩ := List.exists_cons_of_ne_nil h0
  have hc : c ≠ '-' := by
    rintro rfl
    simp only [List.all_cons, Bool.and_eq_true] at h
    exact absurd h.1 (by decide)
  cases neg
  · simp [sgn, hasPrefix, hc.symm]
  · simp [sgn, hasPrefix]
    by_cases k : 4 < w'.length + 1
    · rw [if_pos k, if_pos (by omega)]
    · rw [if_neg k, if_neg (by omega)]

/-- C22, exactly four digits: that year. -/
theorem C22_four (hf : DayCount f) (neg : Bool) {n : Nat} (hn : n < 10000) :
    parseString ('Y' :: (⟨neg, n, .none⟩ : Date0).text) = .ok
      ((⟨neg, n, .none⟩ : Date0).result f (⟨neg, n, .none⟩ : Date0).text ('Y' :: (⟨neg, n, .none⟩ : Date0).text) 1
        (c! "Letter-prefixed calendar year") 0 0) := by
  have hx : (⟨neg, n, .none⟩ : Date0).ok := ⟨hn, trivial⟩
  have e := parse_letter (neg := neg) (pad4_all n) (by simp [pad4])
  rw [show sgn neg (pad4 n) = (⟨neg, n, .none⟩ : Date0).text from (date0_year neg n).symm] at e
  rw [e, if_neg (by simp [pad4]), dateSpanFromEDTF_noSlash (date0_slash _), span_text hx, Res.ok_bind, spanRec_result hf hx]
  rfl

example : 'Y' :: (⟨true, 44, .none⟩ : Date0).text = c! "Y-0044" ∧ ∃ d, parseString (c! "Y-0044") = .ok d := ⟨rfl, _, rfl⟩

/-- C22, more digits: unsupported. -/
theorem C22_more (neg : Bool) {ds : List Nat} (hd : ∀ d ∈ ds, d < 10) (hl : 5 ≤ ds.length) :
    ∃ e, parseString ('Y' :: (if neg then '-' :: ds.map dig else ds.map dig)) = .err e ∧ isUnsupported e = true := by
  have h := parse_letter (neg := neg) (all_dig hd) (by intro h; simp at h; subst h; simp at hl)
  rw [if_pos (by simp; omega)] at h
  exact ⟨_, h, rfl⟩

example : 'Y' :: '-' :: [1, 7, 0, 0, 0, 0, 0, 0, 2].map dig = c! "Y-170000002" ∧ ∃ e, parseString (c! "Y-170000002") = .err e := ⟨rfl, _, rfl⟩

/-- C22, fewer digits: invalid. -/
theorem C22_fewer (neg : Bool) {ds : List Nat} (hd : ∀ d ∈ ds, d < 10) (h1 : 1 ≤ ds.length) (hl : ds.length ≤ 3) :
    ∃ e, parseString ('Y' :: (if neg then '-' :: ds.map dig else ds.map dig)) = .err e ∧ isInvalid e = true := by
  have ha := all_dig hd
  have h := parse_letter (neg := neg) ha (by intro h; simp at h; subst h; simp at h1)
  rw [if_neg (by simp; omega)] at h
  have hns : '/' ∉ sgn neg (ds.map dig) := by
    have := digits_not_mem ha (c := '/') (by decide)
    cases neg
    · exact this
    · intro hc
      rcases List.mem_cons.1 hc with hc | hc
      · exact absurd hc (by decide)
      · exact this hc
  have hno : ∀ F : YMDForm, F.ok → sgn neg (ds.map dig) ≠ F.text := by
    intro F hF e
    obtain ⟨q, neg', a, b, c, d, t, e', hq, xa, xb, xc, xd⟩ := form_year hF
    rw [e'] at e
    have hlen := congrArg List.length e
    have hlw : (ds.map dig).length = ds.length := by simp
    cases neg
    · have : (sgn false (ds.map dig)).length ≤ 3 := by simpa [sgn] using hl
      rw [e] at this
      cases q <;> cases neg' <;> simp [Deco.text, sgn] at this <;> omega
    · have : (sgn true (ds.map dig)).length ≤ 4 := by simp [sgn]; omega
      have hh : (sgn true (ds.map dig)).head? = some '-' := rfl
      rw [e] at this hh
      cases q <;> cases neg' <;> simp [Deco.text, sgn] at this hh
      · subst hh; exact absurd xa (by decide)
      all_goals omega
  rw [dateSpanFromEDTF_noSlash hns] at h
  unfold dateSpanFromYMD at h
  rw [stringRange_none hno] at h
  exact ⟨_, h, rfl⟩

example : 'Y' :: (⟨true, 1985, .none⟩ : Date0).text = c! "Y-1985" := by decide
example : 'Y' :: (if true then '-' :: [1, 7, 0, 0, 0, 0].map dig else [1, 7, 0, 0, 0, 0].map dig) = c! "Y-170000" := by decide
example : 'Y' :: (if false then '-' :: [1, 9, 8].map dig else [1, 9, 8].map dig) = c! "Y198" := by decide

/-! ### C49 -/

theorem lang_seasonWord_iff {w : Str} : Lang seasonWord w ↔ ∃ z : Season, Folded z.word w := by
  unfold seasonWord
  constructor
  · rintro (h | h | h | h)
    · exact ⟨.spring, (lang_word_iff (season_low .spring).1 (season_low .spring).2).1 h⟩
    · exact ⟨.summer, (lang_word_iff (season_low .summer).1 (season_low .summer).2).1 h⟩
    · exact ⟨.fall, (lang_word_iff (season_low .fall).1 (season_low .fall).2).1 h⟩
    · exact ⟨.winter, (lang_word_iff (season_low .winter).1 (season_low .winter).2).1 h⟩
  · rintro ⟨z, h⟩
    have := (lang_word_iff (season_low z).1 (season_low z).2).2 h
    cases z
    · exact Or.inl this
    · exact Or.inr (Or.inl this)
    · exact Or.inr (Or.inr (Or.inl this))
    · exact Or.inr (Or.inr (Or.inr this))

/-- C49, what the test accepts: anything that *starts* with a year and a month
or season number, or *ends* with a season name and a year. -/
theorem C49_exact_partial (s : Str) : L1.isSeason s = true ↔
    (∃ (neg : Bool) (n m : Nat) (rest : Str), n < 10000 ∧ ((1 ≤ m ∧ m ≤ 12) ∨ (21 ≤ m ∧ m ≤ 24)) ∧
      s = (if neg then '-' :: pad4 n else pad4 n) ++ '-' :: (pad2 m ++ rest)) ∨
    (∃ (pre w t1 t2 : Str) (z : Season) (n : Nat), Folded z.word w ∧ Blank t1 ∧ Blank t2 ∧ n < 10000 ∧
      s = pre ++ (w ++ (t1 ++ ',' :: (t2 ++ pad4 n)))) := by
  rw [season_iff]
  constructor
  · rintro (⟨y, c, rest, hy, hc, rfl⟩ | ⟨pre, w, s1, c, s2, y, hw, h1, hc, h2, hy, rfl⟩)
    · obtain ⟨neg, n, hn, rfl⟩ := lang_year4'.1 hy
      obtain ⟨m, -, hm, rfl⟩ := lang_seasonCode.1 hc
      exact Or.inl ⟨neg, n, m, rest, hn, hm, rfl⟩
    · obtain ⟨z, hz⟩ := lang_seasonWord_iff.1 hw
      obtain ⟨n, hn, rfl⟩ := lang_four.1 hy
      exact Or.inr ⟨pre, w, s1, s2, z, n, hz, blank_iff.2 (lang_blanks.1 h1), blank_iff.2 (lang_blanks.1 h2), hn, by rw [fold_comma hc]⟩
  · rintro (⟨neg, n, m, rest, hn, hm, rfl⟩ | ⟨pre, w, t1, t2, z, n, hw, h1, h2, hn, rfl⟩)
    · exact Or.inl ⟨yearStr neg n, pad2 m, rest, lang_year4'.2 ⟨neg, n, hn, rfl⟩, lang_seasonCode.2 ⟨m, by omega, hm, rfl⟩, rfl⟩
    · exact Or.inr ⟨pre, w, t1, ',', t2, pad4 n, lang_seasonWord_iff.2 ⟨z, hw⟩, lang_blanks.2 (blank_iff.1 h1), by decide,
        lang_blanks.2 (blank_iff.1 h2), lang_four.2 ⟨n, hn, rfl⟩, rfl⟩

/-- C49 does not hold: neither end of the pattern is anchored for both alternatives. -/
theorem C49_negation : L1.isSeason (c! "2004-06-foo") = true ∧ L1.isSeason (c! "xxspring,2004") = true ∧ L1.isSeason (c! "1985-04-12/..") = true := by
  refine ⟨(C49_exact_partial _).2 (Or.inl ⟨false, 2004, 6, c! "-foo", ?_⟩), (C49_exact_partial _).2 (Or.inr ⟨c! "xx", c! "spring", [], [], .spring, 2004, ?_⟩),
    (C49_exact_partial _).2 (Or.inl ⟨false, 1985, 4, c! "-12/..", ?_⟩)⟩ <;> decide

/-- Outside the test: no comma and no year-and-month at the beginning. -/
example : L1.isSeason (c! "2004-13") = false ∧ L1.isSeason (c! "spring 2004") = false := by decide +kernel

end EDTF
