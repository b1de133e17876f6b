/- C23: exponential years; C15: what can end in a panic. -/
import Verif.LemmasExp
namespace EDTF
open Spec

variable {f : Int → Nat → Nat → Int}

/-! ### Reaching the parser -/

theorem fold_capital {a c : Char} (h1 : 65 ≤ a.toNat) (h2 : a.toNat ≤ 90) (hS : a ≠ 'S') (hK : a ≠ 'K') :
    clsHas true [(a, a)] c = true ↔ c = a ∨ c = Char.ofNat (a.toNat + 32) := by
  have e1 : ('S' : Char).toNat = 83 := rfl
  have e2 : ('K' : Char).toNat = 75 := rfl
  have hS' : a.toNat ≠ 83 := fun h => hS (char_eq_of_toNat (by rw [h, e1]))
  have hK' : a.toNat ≠ 75 := fun h => hK (char_eq_of_toNat (by rw [h, e2]))
  have hl : (Char.ofNat (a.toNat + 32)).toNat = a.toNat + 32 := ofNat_toNat_small (by omega)
  have hn : ∀ {x y : Char}, x = y ↔ x.toNat = y.toNat := fun {x y} => ⟨fun h => by rw [h], char_eq_of_toNat⟩
  unfold clsHas orbit
  rw [if_pos rfl]
  repeat' split
  all_goals simp only [List.any_cons, List.any_nil, Bool.or_false, inR, Bool.or_eq_true, Bool.and_eq_true, Nat.ble_eq, hn, hl] at *
  · rename_i h
    rw [ofNat_toNat_small (n := c.toNat - 32) (by omega)]; omega
  · rename_i h _
    rw [ofNat_toNat_small (n := c.toNat + 32) (by omega)]; omega
  · rename_i h
    have e3 : ('\u017f' : Char).toNat = 383 := rfl
    have e4 : ('s' : Char).toNat = 115 := rfl
    omega
  · rename_i h
    have e3 : ('\u212a' : Char).toNat = 8490 := rfl
    have e4 : ('k' : Char).toNat = 107 := rfl
    omega
  · omega

theorem fold_Y {c : Char} : clsHas true [('Y', 'Y')] c = true ↔ c = 'Y' ∨ c = 'y' := fold_capital (by decide) (by decide) (by decide) (by decide)
theorem fold_E {c : Char} : clsHas true [('E', 'E')] c = true ↔ c = 'E' ∨ c = 'e' := fold_capital (by decide) (by decide) (by decide) (by decide)

/-- The notation behind the "Y". -/
theorem lang_notation {w : Str} : Lang (.opt (Rx.lit '-') ⬝ .plus Rx.digit ⬝ Rx.lit 'E' ⬝ .plus Rx.digit).ci w ↔
    ∃ neg ms es ec, (ec = 'E' ∨ ec = 'e') ∧ ms.all isDig = true ∧ ms ≠ [] ∧ es.all isDig = true ∧ es ≠ [] ∧ w = sgn neg (ms ++ ec :: es) := by
  have hd : ∀ x : Str, Lang (Re.plus Rx.digit).ci x ↔ Lang (.plus Rx.digit) x := fun x => lang_ci_noLetter (by decide) x
  have ho : ∀ x : Str, Lang (Re.opt (Rx.lit '-')).ci x ↔ Lang (.opt (Rx.lit '-')) x := fun x => lang_ci_noLetter (by decide) x
  constructor
  · intro h
    obtain ⟨u, v, rfl, hu, h⟩ := lang_cat.1 h
    obtain ⟨ms, v, rfl, hms, h⟩ := lang_cat.1 h
    obtain ⟨e, es, rfl, hee, hes⟩ := lang_cat.1 h
    obtain ⟨m1, m2⟩ := lang_plusDigit.1 ((hd ms).1 hms)
    obtain ⟨e1, e2⟩ := lang_plusDigit.1 ((hd es).1 hes)
    obtain ⟨ec, rfl, hec⟩ := hee
    rcases (ho u).1 hu with rfl | hu
    · exact ⟨false, ms, es, ec, fold_E.1 hec, m1, m2, e1, e2, rfl⟩
    · rw [lang_lit.1 hu]
      exact ⟨true, ms, es, ec, fold_E.1 hec, m1, m2, e1, e2, rfl⟩
  · rintro ⟨neg, ms, es, ec, hec, m1, m2, e1, e2, rfl⟩
    have h2 : Lang (.plus Rx.digit ⬝ Rx.lit 'E' ⬝ .plus Rx.digit).ci (ms ++ ec :: es) :=
      lang_cat.2 ⟨_, _, rfl, (hd ms).2 (lang_plusDigit.2 ⟨m1, m2⟩), lang_cat.2 ⟨[ec], _, rfl, ⟨ec, rfl, fold_E.2 hec⟩, (hd es).2 (lang_plusDigit.2 ⟨e1, e2⟩)⟩⟩
    cases neg
    · exact lang_cat.2 ⟨[], _, rfl, (ho []).2 (Or.inl rfl), h2⟩
    · exact lang_cat.2 ⟨['-'], _, rfl, (ho ['-']).2 (Or.inr (lang_lit.2 rfl)), h2⟩

theorem exp_lang {neg : Bool} {ms es : Str} {yc ec : Char} (hyc : yc = 'Y' ∨ yc = 'y') (hec : ec = 'E' ∨ ec = 'e')
    (hm : ms.all isDig = true) (hm0 : ms ≠ []) (he : es.all isDig = true) (he0 : es ≠ []) :
    Lang (Rx.exponentialYear 1) (yc :: sgn neg (ms ++ ec :: es)) :=
  lang_cat.2 ⟨[yc], _, rfl, ⟨yc, rfl, fold_Y.2 hyc⟩, lang_notation.2 ⟨neg, ms, es, ec, hec, hm, hm0, he, he0, rfl⟩⟩

theorem exp_mem {neg : Bool} {ms es : Str} {yc ec : Char} : ec ∈ yc :: sgn neg (ms ++ ec :: es) := by
  cases neg <;> simp [sgn]

theorem exp_level01 {neg : Bool} {ms es : Str} {yc ec : Char} (hyc : yc = 'Y' ∨ yc = 'y') (hec : ec = 'E' ∨ ec = 'e') (t : Str) :
    L0.isLevel0 (yc :: (sgn neg (ms ++ ec :: es) ++ t)) = false ∧ L1.isLevel1 (yc :: (sgn neg (ms ++ ec :: es) ++ t)) = false := by
  have hE : ec ∈ yc :: (sgn neg (ms ++ ec :: es) ++ t) := by
    have := exp_mem (neg := neg) (ms := ms) (es := es) (yc := yc) (ec := ec)
    rw [← List.cons_append]
    exact List.mem_append_left _ this
  have hY : yc ∈ yc :: (sgn neg (ms ++ ec :: es) ++ t) := by simp
  generalize yc :: (sgn neg (ms ++ ec :: es) ++ t) = s at *
  have h0 : L0.isLevel0 s = false := by
    rcases hyc with rfl | rfl
    · exact not_level0_char hY (by decide)
    · exact not_level0_char hY (by decide)
  refine ⟨h0, ?_⟩
  apply Bool.eq_false_iff.2
  intro h
  rcases hyc with rfl | rfl <;> rcases hec with rfl | rfl
  all_goals
    rcases isLevel1_iff.1 h with h | h | h | h | h | h | h | h
    · first
      | exact not_lang_of_char (c := 'E') (by decide) hE h
      | exact not_lang_of_char (c := 'e') (by decide) hE h
    all_goals
      first
      | exact not_lang_of_char (c := 'Y') (by decide) hY h
      | exact not_lang_of_char (c := 'y') (by decide) hY h

/-- The rest of the parser once the number is known. -/
theorem parse_exp' {neg : Bool} {ms es : Str} {yc ec : Char} (hyc : yc = 'Y' ∨ yc = 'y') (hec : ec = 'E' ∨ ec = 'e')
    (hm : ms.all isDig = true) (hm0 : ms ≠ []) (he : es.all isDig = true) (he0 : es ≠ []) :
    parseString (yc :: sgn neg (ms ++ ec :: es)) = (do
      let yyyy ← parseExponentialNotation (sgn neg (ms ++ ec :: es))
      let sp ← dateSpanFromEDTF (itoa yyyy)
      .ok (mkEDTF sp (yc :: sgn neg (ms ++ ec :: es)) 2 (c! "Exponential year"))) := by
  obtain ⟨h0, h1⟩ := exp_level01 hyc hec (neg := neg) (ms := ms) (es := es) []
  rw [List.append_nil] at h0 h1
  have hx := isExponential_iff.2 (exp_lang (neg := neg) hyc hec hm hm0 he he0)
  rw [parse_level2 h0 h1 (isLevel2_of (Or.inl hx))]
  unfold L2.parseString
  rw [hx, if_pos rfl]
  unfold L2.parseExponentialYear
  have hsome : (Rx.ExponentialYear.submatch (yc :: sgn neg (ms ++ ec :: es))).isSome = true := by rw [isSome_submatch]; exact hx
  obtain ⟨m, em⟩ := Option.isSome_iff_exists.1 hsome
  rw [em]
  obtain ⟨c, -, e, -⟩ := exponential_caps em
  injection e with _ e
  simp only [← e]
  rfl

theorem parse_exp {neg : Bool} {ms es : Str} (hm : ms.all isDig = true) (hm0 : ms ≠ []) (he : es.all isDig = true) (he0 : es ≠ []) :
    parseString ('Y' :: sgn neg (ms ++ 'E' :: es)) = (do
      let yyyy ← parseExponentialNotation (sgn neg (ms ++ 'E' :: es))
      let sp ← dateSpanFromEDTF (itoa yyyy)
      .ok (mkEDTF sp ('Y' :: sgn neg (ms ++ 'E' :: es)) 2 (c! "Exponential year"))) :=
  parse_exp' (Or.inl rfl) (Or.inl rfl) hm hm0 he he0

/-- A year that is not of four digits is not a date. -/
theorem itoa_short {v : Int} (h : v.natAbs < 1000) : ∃ w, dateSpanFromEDTF (itoa v) = .err (Invalid (c! "date") w) := by
  have e : itoa v = sgn (decide (v < 0)) (natDigits v.natAbs) ++ [] := by
    unfold itoa
    by_cases h : v < 0
    · simp [h, sgn]
    · simp [h, sgn]
  have hl := (natDigits_length_le (n := v.natAbs) (k := 3) (by decide)).2 h
  have hs : '/' ∉ itoa v := by
    rw [e, List.append_nil]
    intro hc
    have : '/' ∈ natDigits v.natAbs := by
      cases hd : decide (v < 0) with
      | false => rw [hd] at hc; exact hc
      | true =>
        rw [hd] at hc
        rcases List.mem_cons.1 hc with hc | hc
        · exact absurd hc (by decide)
        · exact hc
    exact absurd (List.all_eq_true.1 (natDigits_all _) _ this) (by decide)
  rw [dateSpanFromEDTF_noSlash hs, e]
  exact ⟨_, (halfSpan_digits _ (natDigits_all _) (natDigits_ne_nil _) (by omega) (Or.inl rfl)).2⟩

theorem itoa_year (hf : DayCount f) {neg : Bool} {n : Nat} (h1 : 1000 ≤ n) (h2 : n < 10000) (s : Str) (l : Int) (ft : Str) :
    (do let sp ← dateSpanFromEDTF (itoa (if neg then -(n : Int) else n))
        .ok (mkEDTF sp s l ft)) = .ok ((⟨neg, n, .none⟩ : Date0).result f (⟨neg, n, .none⟩ : Date0).text s l ft 0 0) := by
  have hx : (⟨neg, n, .none⟩ : Date0).ok := ⟨h2, trivial⟩
  rw [itoa_four neg h1 h2, show sgn neg (pad4 n) = (⟨neg, n, .none⟩ : Date0).text from (date0_year neg n).symm,
    dateSpanFromEDTF_noSlash (date0_slash _), span_text hx, Res.ok_bind, spanRec_result hf hx]

theorem wrap64_def (v : Int) : wrap64 v = if v % 18446744073709551616 < 9223372036854775808 then v % 18446744073709551616
    else v % 18446744073709551616 - 18446744073709551616 := rfl

theorem wrap64_small {v : Int} (h1 : -2 ^ 63 ≤ v) (h2 : v < 2 ^ 63) : wrap64 v = v := by
  rw [wrap64_def]
  split <;> omega

theorem wrap64_high {v : Int} (h1 : 2 ^ 63 ≤ v) (h2 : v < 2 ^ 64) : wrap64 v = v - 2 ^ 64 := by
  rw [wrap64_def]
  split <;> omega

theorem wrap64_multiple (i : Int) : ∃ j : Int, wrap64 (16384 * i) = 16384 * j := by
  rw [wrap64_def]
  refine ⟨(if 16384 * i % 18446744073709551616 < 9223372036854775808 then 16384 * i % 18446744073709551616
    else 16384 * i % 18446744073709551616 - 18446744073709551616) / 16384, ?_⟩
  split <;> omega

theorem multiple_zero {j y : Int} {e : Err} (h : (if 16384 * j > MAX_YEARS ∨ 16384 * j < 0 - MAX_YEARS then Res.err e else Res.ok (16384 * j)) = .ok y) :
    y = 0 := by
  have hM : MAX_YEARS = 9999 := rfl
  split at h
  · cases h
  · have := Res.ok.inj h
    omega

/-! ### C23 -/

/-- "Y", a sign, the digits `ms`, "E", the digits `es`. -/
def expText (neg : Bool) (ms es : List Nat) : Str :=
  'Y' :: (if neg then '-' :: (ms.map dig ++ 'E' :: es.map dig) else ms.map dig ++ 'E' :: es.map dig)

example : expText true [1, 7] [2] = c! "Y-17E2" := by decide

/-- The value stays below 2^63: no rounding, no wrap-around. -/
theorem exp_value' (neg : Bool) {ec : Char} (hec : ec = 'E' ∨ ec = 'e') {ms es : List Nat} (hm : ∀ d ∈ ms, d < 10) (he : ∀ d ∈ es, d < 10) (hm0 : ms ≠ []) (he0 : es ≠ [])
    (hs : value10 es < 2 ^ 63) (h : value10 ms * 10 ^ value10 es < 2 ^ 63) :
    parseExponentialNotation (sgn neg (ms.map dig ++ ec :: es.map dig)) =
      if 9999 < value10 ms * 10 ^ value10 es then
        .err (Unsupported (c! "exponential notation") (sgn neg (ms.map dig ++ ec :: es.map dig)))
      else .ok (if neg then -((value10 ms * 10 ^ value10 es : Nat) : Int) else (value10 ms * 10 ^ value10 es : Nat)) := by
  rw [exponential_eq neg hec (all_dig hm) (by simpa using hm0) (all_dig he) (by simpa using he0), digitsVal_map _ hm, digitsVal_map _ he,
    if_neg (by omega)]
  obtain ⟨q, x, e1, e2⟩ := ofExp_exact (m := value10 ms) (e := value10 es) (by omega)
  rw [e1]
  simp only [expTail, e2]
  generalize value10 ms * 10 ^ value10 es = v at *
  have hM : MAX_YEARS = 9999 := rfl
  rw [wrap64_small (v := v) (by omega) (by omega), wrap64_small (v := -(v : Int)) (by omega) (by omega)]
  cases neg
  · simp only [Bool.false_eq_true, if_false]
    by_cases hv : 9999 < v
    · rw [if_pos hv, if_pos (by omega)]
    · rw [if_neg hv, if_neg (by omega)]
  · simp only [if_true]
    by_cases hv : 9999 < v
    · rw [if_pos hv, if_pos (by omega)]
    · rw [if_neg hv, if_neg (by omega)]

theorem exp_value (neg : Bool) {ms es : List Nat} (hm : ∀ d ∈ ms, d < 10) (he : ∀ d ∈ es, d < 10) (hm0 : ms ≠ []) (he0 : es ≠ [])
    (hs : value10 es < 2 ^ 63) (h : value10 ms * 10 ^ value10 es < 2 ^ 63) :
    parseExponentialNotation (sgn neg (ms.map dig ++ 'E' :: es.map dig)) =
      if 9999 < value10 ms * 10 ^ value10 es then
        .err (Unsupported (c! "exponential notation") (sgn neg (ms.map dig ++ 'E' :: es.map dig)))
      else .ok (if neg then -((value10 ms * 10 ^ value10 es : Nat) : Int) else (value10 ms * 10 ^ value10 es : Nat)) :=
  exp_value' neg (Or.inl rfl) hm he hm0 he0 hs h

theorem exp_small {ms es : List Nat} (h0 : value10 ms ≠ 0) (h : value10 ms * 10 ^ value10 es < 2 ^ 64) : value10 es < 2 ^ 63 := by
  have : value10 es < 20 := by
    apply Nat.lt_of_not_le
    intro h20
    have h1 : 10 ^ 20 ≤ 10 ^ value10 es := Nat.pow_le_pow_right (by decide) h20
    have h2 : 1 * 10 ^ value10 es ≤ value10 ms * 10 ^ value10 es := Nat.mul_le_mul_right _ (by omega)
    have h3 : (2 : Nat) ^ 64 ≤ 10 ^ 20 := by decide
    omega
  omega

/-- C23, four-digit values: that year. -/
theorem C23_year_partial (hf : DayCount f) (neg : Bool) {ms es : List Nat} (hm : ∀ d ∈ ms, d < 10) (he : ∀ d ∈ es, d < 10)
    (hm0 : ms ≠ []) (he0 : es ≠ []) (h1 : 1000 ≤ value10 ms * 10 ^ value10 es) (h2 : value10 ms * 10 ^ value10 es ≤ 9999) :
    parseString (expText neg ms es) = .ok ((⟨neg, value10 ms * 10 ^ value10 es, .none⟩ : Date0).result f
      (⟨neg, value10 ms * 10 ^ value10 es, .none⟩ : Date0).text (expText neg ms es) 2 (c! "Exponential year") 0 0) := by
  have hz : value10 ms ≠ 0 := by intro h; rw [h] at h1; simp at h1
  have hs := exp_small (es := es) hz (by omega)
  unfold expText
  rw [show (if neg then '-' :: (ms.map dig ++ 'E' :: es.map dig) else ms.map dig ++ 'E' :: es.map dig) = sgn neg (ms.map dig ++ 'E' :: es.map dig) from rfl,
    parse_exp (all_dig hm) (by simpa using hm0) (all_dig he) (by simpa using he0), exp_value neg hm he hm0 he0 hs (by omega), if_neg (by omega),
    Res.ok_bind]
  exact itoa_year hf h1 (by omega) _ _ _

example : value10 [1, 7] * 10 ^ value10 [2] = 1700 := by decide

/-- C23, larger values below 2^63: unsupported. -/
theorem C23_unsupported_partial (neg : Bool) {ms es : List Nat} (hm : ∀ d ∈ ms, d < 10) (he : ∀ d ∈ es, d < 10)
    (hm0 : ms ≠ []) (he0 : es ≠ []) (h1 : 9999 < value10 ms * 10 ^ value10 es) (h2 : value10 ms * 10 ^ value10 es < 2 ^ 63) :
    ∃ e, parseString (expText neg ms es) = .err e ∧ isUnsupported e = true := by
  have hz : value10 ms ≠ 0 := by intro h; rw [h] at h1; simp at h1
  have hs := exp_small (es := es) hz (by omega)
  unfold expText
  rw [show (if neg then '-' :: (ms.map dig ++ 'E' :: es.map dig) else ms.map dig ++ 'E' :: es.map dig) = sgn neg (ms.map dig ++ 'E' :: es.map dig) from rfl,
    parse_exp (all_dig hm) (by simpa using hm0) (all_dig he) (by simpa using he0), exp_value neg hm he hm0 he0 hs (by omega), if_pos h1]
  exact ⟨_, rfl, rfl⟩

example : 9999 < value10 [1, 7] * 10 ^ value10 [8] ∧ value10 [1, 7] * 10 ^ value10 [8] < 2 ^ 63 := by decide

/-- C23, values below 1000: an error (though such years exist). -/
theorem C23_small_partial (neg : Bool) {ms es : List Nat} (hm : ∀ d ∈ ms, d < 10) (he : ∀ d ∈ es, d < 10)
    (hm0 : ms ≠ []) (he0 : es ≠ []) (h1 : value10 ms * 10 ^ value10 es < 1000) :
    ∃ e, parseString (expText neg ms es) = .err e := by
  unfold expText
  rw [show (if neg then '-' :: (ms.map dig ++ 'E' :: es.map dig) else ms.map dig ++ 'E' :: es.map dig) = sgn neg (ms.map dig ++ 'E' :: es.map dig) from rfl,
    parse_exp (all_dig hm) (by simpa using hm0) (all_dig he) (by simpa using he0)]
  by_cases hs : value10 es < 2 ^ 63
  · rw [exp_value neg hm he hm0 he0 hs (by omega), if_neg (by omega), Res.ok_bind]
    generalize value10 ms * 10 ^ value10 es = v at *
    obtain ⟨w, e⟩ := itoa_short (v := if neg then -(v : Int) else v) (by split <;> omega)
    rw [e]
    exact ⟨_, rfl⟩
  · rw [exponential_eq neg (Or.inl rfl) (all_dig hm) (by simpa using hm0) (all_dig he) (by simpa using he0), digitsVal_map _ he, if_pos (by omega)]
    exact ⟨_, rfl⟩

example : value10 [9] * 10 ^ value10 [2] < 1000 := by decide

/-- C23, values of 2^78 and more: never a date. -/
theorem C23_huge_partial (neg : Bool) {ms es : List Nat} (hm : ∀ d ∈ ms, d < 10) (he : ∀ d ∈ es, d < 10)
    (hm0 : ms ≠ []) (he0 : es ≠ []) (h : 2 ^ 78 ≤ value10 ms * 10 ^ value10 es) (d : EDTFDate) :
    parseString (expText neg ms es) ≠ .ok d := by
  unfold expText
  rw [show (if neg then '-' :: (ms.map dig ++ 'E' :: es.map dig) else ms.map dig ++ 'E' :: es.map dig) = sgn neg (ms.map dig ++ 'E' :: es.map dig) from rfl,
    parse_exp (all_dig hm) (by simpa using hm0) (all_dig he) (by simpa using he0),
    exponential_eq neg (Or.inl rfl) (all_dig hm) (by simpa using hm0) (all_dig he) (by simpa using he0), digitsVal_map _ hm, digitsVal_map _ he]
  split
  · simp
  cases ho : BF.ofExp (value10 ms) (value10 es) with
  | none => simp [expTail]
  | some b =>
    cases b with
    | inf => simp [expTail]
    | fin q x =>
      simp only [expTail]
      obtain ⟨k, hk⟩ := low64_multiple (q := q) (ofExp_huge h ho)
      have hM : MAX_YEARS = 9999 := rfl
      rw [hk]
      obtain ⟨j, hj⟩ := wrap64_multiple k
      have hj' : wrap64 ((16384 * k : Nat) : Int) = 16384 * j := by rw [← hj, Int.natCast_mul]; rfl
      obtain ⟨j2, hj2⟩ := wrap64_multiple (-j)
      have hj2' : wrap64 (-(16384 * j)) = 16384 * j2 := by rw [← hj2, Int.mul_neg]
      rw [hj', hj2']
      intro hd
      obtain ⟨y, hy, hd⟩ := Res.bind_eq_ok.1 hd
      obtain ⟨sp, hsp, hd⟩ := Res.bind_eq_ok.1 hd
      have y0 : y = 0 := by
        cases neg
        · exact multiple_zero hy
        · exact multiple_zero hy
      subst y0
      obtain ⟨w, e⟩ := itoa_short (v := 0) (by decide)
      rw [e] at hsp
      cases hsp

example : 2 ^ 78 ≤ value10 [1] * 10 ^ value10 [2, 4] := by decide

/-- C23 as far as it holds: outside the wrap-around range a date that comes out
is the year written. -/
theorem C23_sound_partial (hf : DayCount f) (neg : Bool) {ms es : List Nat} (hm : ∀ d ∈ ms, d < 10) (he : ∀ d ∈ es, d < 10)
    (hm0 : ms ≠ []) (he0 : es ≠ []) (h : value10 ms * 10 ^ value10 es < 2 ^ 63 ∨ 2 ^ 78 ≤ value10 ms * 10 ^ value10 es) {d : EDTFDate}
    (hd : parseString (expText neg ms es) = .ok d) :
    1000 ≤ value10 ms * 10 ^ value10 es ∧ value10 ms * 10 ^ value10 es ≤ 9999 ∧
    d = (⟨neg, value10 ms * 10 ^ value10 es, .none⟩ : Date0).result f
      (⟨neg, value10 ms * 10 ^ value10 es, .none⟩ : Date0).text (expText neg ms es) 2 (c! "Exponential year") 0 0 := by
  rcases h with h | h
  · by_cases h1 : value10 ms * 10 ^ value10 es < 1000
    · obtain ⟨e, he⟩ := C23_small_partial neg hm he hm0 he0 h1
      rw [he] at hd; cases hd
    by_cases h2 : 9999 < value10 ms * 10 ^ value10 es
    · obtain ⟨e, he, -⟩ := C23_unsupported_partial neg hm he hm0 he0 h2 h
      rw [he] at hd; cases hd
    · rw [C23_year_partial hf neg hm he hm0 he0 (by omega) (by omega)] at hd
      injection hd with hd
      exact ⟨by omega, by omega, hd.symm⟩
  · exact absurd hd (C23_huge_partial neg hm he hm0 he0 h d)

example : value10 [1, 7] * 10 ^ value10 [2] < 2 ^ 63 ∧ ∃ d, parseString (expText true [1, 7] [2]) = .ok d ∧ d.feature = c! "Exponential year" := by
  refine ⟨by decide, (⟨true, 1700, .none⟩ : Date0).result U (c! "-1700") (c! "Y-17E2") 2 (c! "Exponential year") 0 0, by decide +kernel, rfl⟩

/-- C23 does not hold: values just below 2^64 are read as negative years. -/
theorem C23_wrap_partial (hf : DayCount f) {ms es : List Nat} (hm : ∀ d ∈ ms, d < 10) (he : ∀ d ∈ es, d < 10)
    (hm0 : ms ≠ []) (he0 : es ≠ []) {n : Nat} (h1 : 1000 ≤ n) (h2 : n ≤ 9999) (h : value10 ms * 10 ^ value10 es + n = 2 ^ 64) :
    parseString (expText false ms es) = .ok ((⟨true, n, .none⟩ : Date0).result f
      (⟨true, n, .none⟩ : Date0).text (expText false ms es) 2 (c! "Exponential year") 0 0) := by
  have hz : value10 ms ≠ 0 := by intro h0; rw [h0] at h; simp at h; omega
  have hs := exp_small (es := es) hz (by omega)
  obtain ⟨q, x, e1, e2⟩ := ofExp_exact (m := value10 ms) (e := value10 es) (by omega)
  have hM : MAX_YEARS = 9999 := rfl
  unfold expText
  rw [show (if false then '-' :: (ms.map dig ++ 'E' :: es.map dig) else ms.map dig ++ 'E' :: es.map dig) = sgn false (ms.map dig ++ 'E' :: es.map dig) from rfl,
    parse_exp (all_dig hm) (by simpa using hm0) (all_dig he) (by simpa using he0),
    exponential_eq false (Or.inl rfl) (all_dig hm) (by simpa using hm0) (all_dig he) (by simpa using he0), digitsVal_map _ hm, digitsVal_map _ he,
    if_neg (by omega), e1]
  simp only [expTail, e2, Bool.false_eq_true, if_false]
  rw [wrap64_high (by omega) (by omega), if_neg (by omega), Res.ok_bind]
  have : ((value10 ms * 10 ^ value10 es : Nat) : Int) - 2 ^ 64 = if true then -(n : Int) else n := by simp only [if_true]; omega
  rw [this]
  exact itoa_year hf h1 (by omega) _ _ _

example : value10 [1,8,4,4,6,7,4,4,0,7,3,7,0,9,5,4,9,6,1,6] * 10 ^ value10 [0] + 2000 = 2 ^ 64 := by decide

/-- C23 does not hold: 2^64 + 2000 is read as the year 2000. -/
theorem C23_negation : ∃ d, parseString (c! "Y18446744073709553616E0") = .ok d ∧
    (d.start.bind (·.lower)).bind (·.ymd) = some ⟨2000, 1, 1⟩ ∧ (d.stop.bind (·.upper)).bind (·.ymd) = some ⟨2000, 12, 31⟩ ∧
    (18446744073709553616 : Int) = 2 ^ 64 + 2000 := by
  refine ⟨(⟨false, 2000, .none⟩ : Date0).result U (⟨false, 2000, .none⟩ : Date0).text (c! "Y18446744073709553616E0") 2 (c! "Exponential year") 0 0, ?_, rfl, rfl, by decide⟩
  have e := parse_exp (neg := false) (ms := c! "18446744073709553616") (es := ['0']) (by decide) (by decide) (by decide) (by decide)
  have e2 := exponential_eq false (Or.inl rfl) (ms := c! "18446744073709553616") (es := ['0']) (by decide) (by decide) (by decide) (by decide)
  have e3 : BF.ofExp (digitsVal (c! "18446744073709553616")) (digitsVal ['0']) = some (.fin 9223372036854776808 1) := by decide +kernel
  have e4 : expTail false (sgn false (c! "18446744073709553616" ++ 'E' :: ['0'])) (some (.fin 9223372036854776808 1)) = .ok 2000 := by rfl
  rw [if_neg (by decide), e3, e4] at e2
  rw [e2, Res.ok_bind] at e
  exact e.trans (itoa_year dayCount_unixDay (neg := false) (n := 2000) (by decide) (by decide) _ _ _)

/-- C23: some large exponents end in a panic. -/
theorem C23_panic_partial (neg : Bool) {ms es : List Nat} (hm : ∀ d ∈ ms, d < 10) (he : ∀ d ∈ es, d < 10)
    (hm0 : ms ≠ []) (he0 : es ≠ []) {b : Nat} (h0 : 2 ^ b ≤ value10 ms) (h0' : value10 ms < 2 ^ (b + 1)) (h1 : b + 1 + value10 es < 2 ^ 31)
    (h2 : 2 ^ 31 ≤ b + 1 + 3 * value10 es) :
    parseString (expText neg ms es) = .panic := by
  have hb : BF.bitLen (value10 ms) = b + 1 := by
    have := BF.lt_bitLen.2 h0
    have := BF.bitLen_le.2 h0'
    omega
  have hp : 0 < 2 ^ b := Nat.pow_pos (by decide)
  have hM : BF.maxExp = 2 ^ 31 - 1 := rfl
  unfold expText
  rw [show (if neg then '-' :: (ms.map dig ++ 'E' :: es.map dig) else ms.map dig ++ 'E' :: es.map dig) = sgn neg (ms.map dig ++ 'E' :: es.map dig) from rfl,
    parse_exp (all_dig hm) (by simpa using hm0) (all_dig he) (by simpa using he0),
    exponential_eq neg (Or.inl rfl) (all_dig hm) (by simpa using hm0) (all_dig he) (by simpa using he0), digitsVal_map _ hm, digitsVal_map _ he,
    if_neg (by omega), ofExp_inf (by omega) (by omega) (by omega)]
  rfl

example : parseString (c! "Y1E2000000000") = .panic :=
  C23_panic_partial false (ms := [1]) (es := [2, 0, 0, 0, 0, 0, 0, 0, 0, 0]) (b := 0) (by decide) (by decide) (by decide) (by decide) (by decide) (by decide) (by decide) (by decide)

end EDTF
