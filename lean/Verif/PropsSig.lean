/- C24: significant digits. -/
import Verif.PropsLevel2
import Verif.LemmasDT
import Verif.PropsMisc
namespace EDTF
open Spec

variable {f : Int → Nat → Nat → Int}

/-! ### Reaching the parser -/

theorem lang_plusDigit {w : Str} : Lang (.plus Rx.digit) w ↔ w.all isDig = true ∧ w ≠ [] := by
  constructor
  · intro h
    refine ⟨lang_digitsOnly (by decide) h, ?_⟩
    obtain ⟨u, v, rfl, hu, -⟩ := h
    obtain ⟨c, rfl, -⟩ := lang_digit.1 hu
    simp
  · rintro ⟨h, hne⟩
    obtain ⟨c, t, rfl⟩ := List.exists_cons_of_ne_nil hne
    simp only [List.all_cons, Bool.and_eq_true] at h
    refine ⟨[c], t, rfl, lang_digit.2 ⟨c, rfl, h.1⟩, ?_⟩
    have h2 := h.2
    clear h hne
    induction t with
    | nil => exact Star.nil
    | cons d t ih =>
      simp only [List.all_cons, Bool.and_eq_true] at h2
      exact Star.cons [d] t (lang_digit.2 ⟨d, rfl, h2.1⟩) (by simp) (ih h2.2)

theorem sig_isSig {neg : Bool} {n : Nat} (hn : n < 10000) {ds : Str} (hd : ds.all isDig = true) (hne : ds ≠ []) :
    L2.isSignificantDigits (yearStr neg n ++ 'S' :: ds) = true :=
  isSig_iff.2 (lang_cat.2 ⟨_, _, rfl, Or.inl (lang_year4'.2 ⟨neg, n, hn, rfl⟩),
    lang_cat.2 ⟨['S'], ds, rfl, lang_lit.2 rfl, lang_plusDigit.2 ⟨hd, hne⟩⟩⟩)

theorem sig_chars {neg : Bool} {n : Nat} {ds : Str} (hd : ds.all isDig = true) {c : Char} (h1 : isDig c = false) (h2 : c ≠ '-') (h3 : c ≠ 'S') :
    c ∉ yearStr neg n ++ 'S' :: ds := by
  intro h
  rcases List.mem_append.1 h with h | h
  · exact yearStr_not_mem _ _ h1 h2 h
  · rcases List.mem_cons.1 h with h | h
    · exact h3 h
    · exact digits_not_mem hd h1 h

theorem sig_plain {neg : Bool} {n : Nat} {ds : Str} (hd : ds.all isDig = true) : (yearStr neg n ++ 'S' :: ds).all plainC = true := by
  rw [List.all_append, List.all_cons, plain_digits hd]
  have : (yearStr neg n).all plainC = true := by
    cases neg
    · exact plain_digits (pad4_all n)
    · show (('-' :: pad4 n).all plainC) = true
      rw [List.all_cons, plain_digits (pad4_all n)]; rfl
  rw [this]; rfl

theorem parse_sig {neg : Bool} {n : Nat} (hn : n < 10000) {ds : Str} (hd : ds.all isDig = true) (hne : ds ≠ []) :
    parseString (yearStr neg n ++ 'S' :: ds) = L2.parseSignificantDigits (yearStr neg n ++ 'S' :: ds) := by
  have hS : 'S' ∈ yearStr neg n ++ 'S' :: ds := by simp
  have h0 : L0.isLevel0 (yearStr neg n ++ 'S' :: ds) = false := not_level0_char hS (by decide)
  have h1 : L1.isLevel1 (yearStr neg n ++ 'S' :: ds) = false := by
    refine not_level1_of (sig_chars hd (by decide) (by decide) (by decide)) (sig_chars hd (by decide) (by decide) (by decide)) ?_ ?_ ?_ ?_ ?_ ?_
    all_goals exact not_lang_of_char (c := 'S') (by decide) hS
  have hs := sig_isSig (neg := neg) hn hd hne
  rw [parse_level2 h0 h1 (isLevel2_of (Or.inr (Or.inl hs)))]
  unfold L2.parseString
  rw [not_exponential (sig_plain hd) (Or.inl (sig_chars hd (by decide) (by decide) (by decide))), hs]
  rfl

theorem foldY_digit : ∀ k, k < 10 → clsHas true [('Y', 'Y')] (dig k) = false := by decide

theorem sig_submatch {neg : Bool} {n : Nat} (hn : n < 10000) {ds : Str} (hd : ds.all isDig = true) (hne : ds ≠ []) :
    ∃ m, Rx.SignificantDigits.submatch (yearStr neg n ++ 'S' :: ds) = some m ∧ m 1 = yearStr neg n ∧ m 4 = ds := by
  have hs := sig_isSig (neg := neg) hn hd hne
  unfold L2.isSignificantDigits at hs
  rw [← isSome_submatch, Option.isSome_iff_exists] at hs
  obtain ⟨m, hm⟩ := hs
  obtain ⟨h4, h⟩ := sig_caps hm
  have hY : ∀ {c : Char} {t : Str}, clsHas true [('Y', 'Y')] c = true → yearStr neg n ++ 'S' :: ds ≠ c :: t := by
    intro c t hc e
    cases neg with
    | false =>
      injection e with e _
      have := foldY_digit (n / 1000 % 10) (by omega)
      rw [e, hc] at this; cases this
    | true =>
      injection e with e _
      rw [← e] at hc
      exact absurd hc (by decide)
  rcases h with ⟨hy, -, -, e⟩ | ⟨-, -, -, e⟩ | ⟨-, -, -, c, hc, e⟩
  · obtain ⟨neg', n', -, e'⟩ := lang_year4'.1 hy
    rw [e'] at e
    obtain ⟨a, b⟩ := char_split (yearStr_not_mem _ _ (by decide) (by decide)) (yearStr_not_mem _ _ (by decide) (by decide)) e
    exact ⟨m, hm, by rw [e', a], b.symm⟩
  · exact absurd e (hY (by decide))
  · exact absurd e (hY hc)

/-- Number of characters of the year written without leading zeros. -/
def plainLen (v : Int) : Nat :=
  (if v.natAbs < 10 then 1 else if v.natAbs < 100 then 2 else if v.natAbs < 1000 then 3 else 4) + (if v < 0 then 1 else 0)

theorem plainLen_pos (v : Int) : 1 ≤ plainLen v := by
  unfold plainLen
  repeat' split
  all_goals omega

theorem itoa_length {v : Int} (h : v.natAbs < 10000) : (itoa v).length = plainLen v := by
  have hl : (natDigits v.natAbs).length = (if v.natAbs < 10 then 1 else if v.natAbs < 100 then 2 else if v.natAbs < 1000 then 3 else 4) := by
    have h0 : 1 ≤ (natDigits v.natAbs).length := by
      have := natDigits_ne_nil v.natAbs
      cases hh : natDigits v.natAbs with
      | nil => exact absurd hh this
      | cons a b => simp
    have h1 := natDigits_length_le (n := v.natAbs) (k := 1) (by decide)
    have h2 := natDigits_length_le (n := v.natAbs) (k := 2) (by decide)
    have h3 := natDigits_length_le (n := v.natAbs) (k := 3) (by decide)
    have h4 := natDigits_length_le (n := v.natAbs) (k := 4) (by decide)
    split
    · omega
    split
    · omega
    split <;> omega
  unfold itoa plainLen
  split
  · simp [hl]
  · simp [hl]

/-- The rest of the parser, once the year and the number are known. -/
def sigTail (s : Str) (v : Int) (k : Nat) : Res EDTFDate :=
  if 2 ^ 63 ≤ k ∨ 10 ^ plainLen v ≤ k then .err (Invalid (c! "Significant digits") s)
  else do
    let str ← L2.sigString v k
    let sp ← dateSpanFromEDTF str
    .ok (mkEDTF sp s 2 (c! "Significant digits"))

theorem sig_core {s : Str} {m : Nat → Str} (hm : Rx.SignificantDigits.submatch s = some m) {v : Int} (hv : v.natAbs < 10000)
    (hy : L2.sigYear s (m 1) (m 2) (m 3) = .ok v) (hd : (m 4).all isDig = true) (hne : m 4 ≠ []) :
    L2.parseSignificantDigits s = sigTail s v (digitsVal (m 4)) := by
  have hmax : ¬ (v > MAX_YEARS) := by unfold MAX_YEARS; omega
  unfold L2.parseSignificantDigits sigTail
  rw [hm]
  simp only
  rw [hy, Res.ok_bind, if_neg hmax]
  generalize m 4 = ds at *
  have ha : atoi ds = if digitsVal ds < 2 ^ 63 then some (digitsVal ds : Int) else none := parseInt_digits 64 hd hne
  rw [ha]
  by_cases hk : digitsVal ds < 2 ^ 63
  · rw [if_pos hk]
    simp only
    have e1 : (itoa (digitsVal ds : Int)).length > (itoa v).length ↔ 10 ^ plainLen v ≤ digitsVal ds := by
      rw [itoa_length hv, itoa_nat]
      have h1 := plainLen_pos v
      have := natDigits_length_le (n := digitsVal ds) (k := plainLen v) h1
      omega
    by_cases hl : 10 ^ plainLen v ≤ digitsVal ds
    · rw [if_pos (e1.2 hl), if_pos (Or.inr hl)]; rfl
    · rw [if_neg (fun h => hl (e1.1 h)), if_neg (fun h => by rcases h with h | h <;> omega)]
      rfl
  · rw [if_neg hk, if_pos (Or.inl (by omega))]
    rfl

theorem sig_eq {neg : Bool} {n : Nat} (hn : n < 10000) {ds : Str} (hd : ds.all isDig = true) (hne : ds ≠ []) :
    parseString (yearStr neg n ++ 'S' :: ds) =
      sigTail (yearStr neg n ++ 'S' :: ds) (if neg then -(n : Int) else n) (digitsVal ds) := by
  rw [parse_sig hn hd hne]
  obtain ⟨m, hm, m1, m4⟩ := sig_submatch (neg := neg) hn hd hne
  have e := sig_core hm (v := if neg then -(n : Int) else n) (by split <;> omega) ?_ (by rw [m4]; exact hd) (by rw [m4]; exact hne)
  · rw [m4] at e; exact e
  · unfold L2.sigYear
    rw [m1, if_pos (yearStr_ne_nil _ _), atoi_yearStr neg hn]

/-! ### The years -/

/-- First and last number agreeing with `n` in all but the last `k` digits. -/
def sigFirst (n k : Nat) : Nat := n / 10 ^ k * 10 ^ k
def sigLast (n k : Nat) : Nat := n / 10 ^ k * 10 ^ k + (10 ^ k - 1)

theorem sig_bounds {n k : Nat} (hn : n < 10000) (hk : k ≤ 4) : sigFirst n k ≤ n ∧ n ≤ sigLast n k ∧ sigLast n k < 10000 := by
  unfold sigFirst sigLast
  rcases (by omega : k = 0 ∨ k = 1 ∨ k = 2 ∨ k = 3 ∨ k = 4) with rfl | rfl | rfl | rfl | rfl <;> omega

theorem pad4_congr {a b : Nat} (h1 : a / 1000 % 10 = b / 1000 % 10) (h2 : a / 100 % 10 = b / 100 % 10) (h3 : a / 10 % 10 = b / 10 % 10)
    (h4 : a % 10 = b % 10) : pad4 a = pad4 b := by unfold pad4; rw [h1, h2, h3, h4]

theorem sig_first {n k : Nat} (hk : k ≤ 4) : (pad4 n).take (4 - k) ++ List.replicate k '0' = pad4 (sigFirst n k) := by
  have e : ∀ a b c d x y z w : Nat, a = x → b = y → c = z → d = w → [dig a, dig b, dig c, dig d] = [dig x, dig y, dig z, dig w] := by
    intros; subst_vars; rfl
  unfold sigFirst
  rcases (by omega : k = 0 ∨ k = 1 ∨ k = 2 ∨ k = 3 ∨ k = 4) with rfl | rfl | rfl | rfl | rfl
  · exact e _ _ _ _ _ _ _ _ (by omega) (by omega) (by omega) (by omega)
  · exact e (n / 1000 % 10) (n / 100 % 10) (n / 10 % 10) 0 _ _ _ _ (by omega) (by omega) (by omega) (by omega)
  · exact e (n / 1000 % 10) (n / 100 % 10) 0 0 _ _ _ _ (by omega) (by omega) (by omega) (by omega)
  · exact e (n / 1000 % 10) 0 0 0 _ _ _ _ (by omega) (by omega) (by omega) (by omega)
  · exact e 0 0 0 0 _ _ _ _ (by omega) (by omega) (by omega) (by omega)

theorem sig_last {n k : Nat} (hk : k ≤ 4) : (pad4 n).take (4 - k) ++ List.replicate k '9' = pad4 (sigLast n k) := by
  have e : ∀ a b c d x y z w : Nat, a = x → b = y → c = z → d = w → [dig a, dig b, dig c, dig d] = [dig x, dig y, dig z, dig w] := by
    intros; subst_vars; rfl
  unfold sigLast
  rcases (by omega : k = 0 ∨ k = 1 ∨ k = 2 ∨ k = 3 ∨ k = 4) with rfl | rfl | rfl | rfl | rfl
  · exact e _ _ _ _ _ _ _ _ (by omega) (by omega) (by omega) (by omega)
  · exact e (n / 1000 % 10) (n / 100 % 10) (n / 10 % 10) 9 _ _ _ _ (by omega) (by omega) (by omega) (by omega)
  · exact e (n / 1000 % 10) (n / 100 % 10) 9 9 _ _ _ _ (by omega) (by omega) (by omega) (by omega)
  · exact e (n / 1000 % 10) 9 9 9 _ _ _ _ (by omega) (by omega) (by omega) (by omega)
  · exact e 9 9 9 9 _ _ _ _ (by omega) (by omega) (by omega) (by omega)

theorem dig_inj {a b : Nat} (ha : a < 10) (hb : b < 10) (h : dig a = dig b) : a = b := by
  have := congrArg digVal h
  rwa [digVal_dig_lt a ha, digVal_dig_lt b hb] at this

theorem sig_agree {n y k : Nat} (hn : n < 10000) (hy : y < 10000) (hk : k ≤ 4) :
    (sigFirst n k ≤ y ∧ y ≤ sigLast n k) ↔ (pad4 y).take (4 - k) = (pad4 n).take (4 - k) := by
  have di : ∀ {a b : Nat}, dig (a % 10) = dig (b % 10) ↔ a % 10 = b % 10 := by
    intro a b; exact ⟨dig_inj (by omega) (by omega), fun h => by rw [h]⟩
  unfold sigFirst sigLast
  rcases (by omega : k = 0 ∨ k = 1 ∨ k = 2 ∨ k = 3 ∨ k = 4) with rfl | rfl | rfl | rfl | rfl
  all_goals simp only [pad4, Nat.sub_zero, Nat.sub_self, List.take, List.cons.injEq, and_true, iff_true, di, Nat.reducePow, Nat.reduceSub]
  all_goals omega

theorem itoa_four (neg : Bool) {n : Nat} (h1 : 1000 ≤ n) (h2 : n < 10000) : itoa (if neg then -(n : Int) else n) = sgn neg (pad4 n) := by
  unfold itoa
  cases neg
  · simp only [Bool.false_eq_true, if_false]
    rw [if_neg (by omega), Int.natAbs_natCast, natDigits_four h1 h2]; rfl
  · simp only [if_true]
    rw [if_pos (by omega), Int.natAbs_neg, Int.natAbs_natCast, natDigits_four h1 h2]; rfl

theorem sigString_four (neg : Bool) {n k : Nat} (h1 : 1000 ≤ n) (h2 : n < 10000) (hk : k ≤ 4) :
    L2.sigString (if neg then -(n : Int) else n) k = .ok (if neg then '-' :: pad4 (sigLast n k) ++ '/' :: '-' :: pad4 (sigFirst n k)
      else pad4 (sigFirst n k) ++ '/' :: pad4 (sigLast n k)) := by
  unfold L2.sigString
  rw [itoa_four neg h1 h2]
  have hl : (sgn neg (pad4 n)).length = 4 + (if neg then 1 else 0) := by cases neg <;> rfl
  have ht : (sgn neg (pad4 n)).take (4 + (if neg then 1 else 0) - k) = sgn neg ((pad4 n).take (4 - k)) := by
    cases neg
    · rfl
    · simp only [sgn, if_true]
      rw [show 4 + 1 - k = (4 - k) + 1 by omega, List.take_succ_cons]
  have hs : ∀ x y : Str, sgn neg x ++ y = sgn neg (x ++ y) := by intro x y; cases neg <;> rfl
  simp only [hl]
  rw [if_neg (by split <;> omega), ht, hs, hs, sig_first hk, sig_last hk]
  cases neg
  · have h0 : ∀ a, hasPrefix (sgn false (pad4 a)) (c! "-") = false := by
      intro a
      have : '-' ≠ dig (a / 1000 % 10) := fun h => dig_mod_ne _ (by decide) h.symm
      simp [hasPrefix, List.isPrefixOf, sgn, pad4, this]
    rw [h0, h0]
    simp [sgn]
  · have h0 : ∀ a, hasPrefix (sgn true (pad4 a)) (c! "-") = true := by
      intro a; simp [hasPrefix, List.isPrefixOf, sgn]
    rw [h0, h0]
    simp [sgn]

/-- The two sides of the span. -/
def sigLeft (neg : Bool) (n k : Nat) : Date0 := ⟨neg, if neg then sigLast n k else sigFirst n k, .none⟩
def sigRight (neg : Bool) (n k : Nat) : Date0 := ⟨neg, if neg then sigFirst n k else sigLast n k, .none⟩

theorem lt63 {v : Int} {k : Nat} (hk : k ≤ 9) : ¬ (2 ^ 63 ≤ k ∨ 10 ^ plainLen v ≤ k) := by
  have h1 := plainLen_pos v
  have : 10 ^ 1 ≤ 10 ^ plainLen v := Nat.pow_le_pow_right (by decide) h1
  omega

/-! ### C24 -/

/-- C24, what `S k` does for a year of at least 1000 (or at most -1000): the
span of all years that agree with it in all but the last `k` digits.  This is
the documented meaning only for `k = 2` (`C24_two_partial`). -/
theorem C24_actual_partial (hf : DayCount f) (neg : Bool) {n : Nat} (h1 : 1000 ≤ n) (h2 : n < 10000) {ds : List Nat} (hd : ∀ d ∈ ds, d < 10)
    (hne : ds ≠ []) (hk : value10 ds ≤ 4) :
    parseString ((⟨neg, n, .none⟩ : Date0).text ++ 'S' :: ds.map dig) = .ok
      { start := some ((sigLeft neg n (value10 ds)).range f (sigLeft neg n (value10 ds)).text 0 0 Prec.YEAR)
        stop := some ((sigRight neg n (value10 ds)).range f (sigRight neg n (value10 ds)).text 0 0 Prec.YEAR)
        edtf := (⟨neg, n, .none⟩ : Date0).text ++ 'S' :: ds.map dig
        level := 2
        feature := c! "Significant digits" } ∧
    (∀ y, y < 10000 → ((sigFirst n (value10 ds) ≤ y ∧ y ≤ sigLast n (value10 ds)) ↔
      (pad4 y).take (4 - value10 ds) = (pad4 n).take (4 - value10 ds))) := by
  refine ⟨?_, fun y hy => sig_agree h2 hy hk⟩
  rw [date0_year]
  have e := sig_eq (neg := neg) h2 (all_dig hd) (by simpa using hne)
  rw [digitsVal_map ds hd] at e
  rw [e]
  generalize value10 ds = k at *
  generalize yearStr neg n ++ 'S' :: ds.map dig = s
  unfold sigTail
  rw [if_neg (lt63 (by omega)), sigString_four neg h1 h2 hk, Res.ok_bind]
  have hb := sig_bounds h2 hk
  have hl : (sigLeft neg n k).ok := ⟨by unfold sigLeft; simp only; split <;> omega, trivial⟩
  have hr : (sigRight neg n k).ok := ⟨by unfold sigRight; simp only; split <;> omega, trivial⟩
  have es : (if neg then '-' :: pad4 (sigLast n k) ++ '/' :: '-' :: pad4 (sigFirst n k) else pad4 (sigFirst n k) ++ '/' :: pad4 (sigLast n k)) =
      (Side.date (sigLeft neg n k)).text ++ '/' :: (Side.date (sigRight neg n k)).text := by
    show _ = (sigLeft neg n k).text ++ '/' :: (sigRight neg n k).text
    rw [date0_text, date0_text]
    cases neg <;> simp [sigLeft, sigRight, yearStr, sgn]
  rw [es, span_sides (l := .date (sigLeft neg n k)) (r := .date (sigRight neg n k)) hl hr, Res.ok_bind, side_congr hf (x := .date (sigLeft neg n k)) hl,
    side_congr hf (x := .date (sigRight neg n k)) hr]
  rfl

example : (⟨false, 1950, .none⟩ : Date0).text ++ 'S' :: [2].map dig = c! "1950S2" ∧ value10 [2] = 2 ∧ sigFirst 1950 2 = 1900 ∧ sigLast 1950 2 = 1999 := by
  decide

/-- C24 for two significant digits: the years agreeing in the first two digits. -/
theorem C24_two_partial (hf : DayCount f) {n : Nat} (h1 : 1000 ≤ n) (h2 : n < 10000) :
    ∃ r a b, parseString (pad4 n ++ c! "S2") = .ok r ∧ r.lower = .ok (86400 * f (a : Nat) 1 1) ∧ r.upper = .ok (86400 * f (b : Nat) 12 31 + 86399) ∧
      ∀ y, y < 10000 → ((a ≤ y ∧ y ≤ b) ↔ (pad4 y).take 2 = (pad4 n).take 2) := by
  obtain ⟨e, h⟩ := C24_actual_partial hf false h1 h2 (ds := [2]) (by decide) (by decide) (by decide)
  refine ⟨_, sigFirst n 2, sigLast n 2, e, ?_, ?_, h⟩
  · simp [EDTFDate.lower, Date0.range, dayStart, dated, sigLeft, Date0.value, Date0.first, value10]
  · simp [EDTFDate.upper, Date0.range, dayEnd, dated, sigRight, Date0.value, Date0.last, value10]

example : 1000 ≤ 1950 ∧ (pad4 1950).take 2 = c! "19" := by decide

/-- The numbers agreeing in all but the last `k` digits are not those agreeing
in the first `k` digits. -/
theorem sig_fails {n k : Nat} (h1 : 1000 ≤ n) (h2 : n < 10000) (hk : k = 1 ∨ k = 3 ∨ k = 4) :
    ¬ ∀ y, y < 10000 → ((sigFirst n k ≤ y ∧ y ≤ sigLast n k) ↔ (pad4 y).take k = (pad4 n).take k) := by
  have di : ∀ {a b : Nat}, dig (a % 10) = dig (b % 10) ↔ a % 10 = b % 10 := by
    intro a b; exact ⟨dig_inj (by omega) (by omega), fun h => by rw [h]⟩
  intro h
  have hw : ∃ y, y < 10000 ∧ y / 1000 = n / 1000 ∧ y / 10 ≠ n / 10 ∧ y / 100 ≠ n / 100 :=
    ⟨if n / 100 % 10 = 0 then n + 100 else n - 100, by split <;> omega, by split <;> omega, by split <;> omega, by split <;> omega⟩
  obtain ⟨y, hy, e1, e2, e3⟩ := hw
  have := h y hy
  rw [sig_agree h2 hy (by omega)] at this
  rcases hk with rfl | rfl | rfl
  all_goals
    simp only [pad4, Nat.sub_self, List.take, List.cons.injEq, and_true, true_iff, di, Nat.reduceSub] at this
    omega

/-- C24 fails for every other number of digits and every such year: the years
in the span are not those that agree in the first `k` digits. -/
theorem C24_fails (hf : DayCount f) {n k : Nat} (h1 : 1000 ≤ n) (h2 : n < 10000) (hk : k = 1 ∨ k = 3 ∨ k = 4) :
    ∃ r a b, parseString (pad4 n ++ ['S', dig k]) = .ok r ∧ r.lower = .ok (86400 * f (a : Nat) 1 1) ∧ r.upper = .ok (86400 * f (b : Nat) 12 31 + 86399) ∧
      ¬ ∀ y, y < 10000 → ((a ≤ y ∧ y ≤ b) ↔ (pad4 y).take k = (pad4 n).take k) := by
  have e0 : value10 [k] = k := by simp [value10]
  obtain ⟨e, -⟩ := C24_actual_partial hf false h1 h2 (ds := [k]) (by intro d hd; simp at hd; omega) (by simp) (by omega)
  rw [e0] at e
  refine ⟨_, sigFirst n k, sigLast n k, e, ?_, ?_, sig_fails h1 h2 hk⟩
  · simp [EDTFDate.lower, Date0.range, dayStart, dated, sigLeft, Date0.value, Date0.first]
  · simp [EDTFDate.upper, Date0.range, dayEnd, dated, sigRight, Date0.value, Date0.last]

example : pad4 1950 ++ ['S', dig 3] = c! "1950S3" := by decide

/-- C24 does not hold: three digits of 1950 give the years 1000 to 1999, four
the years 0 to 9999, and five end the program. -/
theorem C24_negation :
    (∃ r, parseString (c! "1950S3") = .ok r ∧ (r.start.bind (·.lower)).bind (·.ymd) = some ⟨1000, 1, 1⟩ ∧
      (r.stop.bind (·.upper)).bind (·.ymd) = some ⟨1999, 12, 31⟩) ∧
    (∃ r, parseString (c! "1950S4") = .ok r ∧ (r.start.bind (·.lower)).bind (·.ymd) = some ⟨0, 1, 1⟩ ∧
      (r.stop.bind (·.upper)).bind (·.ymd) = some ⟨9999, 12, 31⟩) ∧
    parseString (c! "1950S5") = .panic := by
  refine ⟨⟨_, (C24_actual_partial dayCount_unixDay false (n := 1950) (ds := [3]) (by decide) (by decide) (by decide) (by decide) (by decide)).1, rfl, rfl⟩,
    ⟨_, (C24_actual_partial dayCount_unixDay false (n := 1950) (ds := [4]) (by decide) (by decide) (by decide) (by decide) (by decide)).1, rfl, rfl⟩, ?_⟩
  have := sig_eq (neg := false) (n := 1950) (by decide) (ds := ['5']) (by decide) (by decide)
  rw [show (c! "1950S5" : Str) = yearStr false 1950 ++ 'S' :: ['5'] from by decide, this]
  rfl

/-- The two strings, whatever the year: both of the same digits length, with the
minus sign unless it is cut off as well. -/
theorem sigString_gen {v : Int} {k : Nat} (hv : v.natAbs < 10000) (hk : k ≤ plainLen v) :
    ∃ b u w, u.all isDig = true ∧ w.all isDig = true ∧ u.length = max (natDigits v.natAbs).length k ∧
      w.length = max (natDigits v.natAbs).length k ∧ L2.sigString v k = .ok (sgn b u ++ '/' :: sgn b w) := by
  have hl := itoa_length hv
  have ha := natDigits_all v.natAbs
  have hne := natDigits_ne_nil v.natAbs
  generalize hD : natDigits v.natAbs = D at *
  have r0 : ∀ k, (List.replicate k '0').all isDig = true := by intro k; simp [isDig]
  have r9 : ∀ k, (List.replicate k '9').all isDig = true := by intro k; simp [isDig]
  have tk : ∀ i, (D.take i).all isDig = true := by
    intro i
    rw [List.all_eq_true] at *
    exact fun c hc => ha c (List.mem_of_mem_take hc)
  have al : ∀ i (x : Str), x.all isDig = true → (D.take i ++ x).all isDig = true := by
    intro i x hx; rw [List.all_append, tk i, hx]; rfl
  have np : ∀ x : Str, x.all isDig = true → hasPrefix x (c! "-") = false := by
    intro x hx
    cases x with
    | nil => rfl
    | cons c x =>
      have : c ≠ '-' := isDig_ne (List.all_eq_true.1 hx c (by simp)) (by decide)
      simp [hasPrefix, List.isPrefixOf, this.symm]
  unfold L2.sigString
  simp only [hl]
  rw [if_neg (by omega)]
  rcases (by omega : 0 ≤ v ∨ v < 0) with h | h
  · have e : itoa v = D := by unfold itoa; rw [if_neg (by omega), hD]
    rw [e] at hl ⊢
    rw [← hl] at hk ⊢
    refine ⟨false, D.take (D.length - k) ++ List.replicate k '0', D.take (D.length - k) ++ List.replicate k '9', al _ _ (r0 _), al _ _ (r9 _), ?_, ?_, ?_⟩
    · simp; omega
    · simp; omega
    · rw [np _ (al _ _ (r0 _))]
      simp [sgn]
  · have e : itoa v = '-' :: D := by unfold itoa; rw [if_pos h, hD]
    rw [e] at hl ⊢
    rw [← hl] at hk ⊢
    simp only [List.length_cons] at *
    by_cases hk' : k = D.length + 1
    · refine ⟨false, List.replicate k '0', List.replicate k '9', r0 _, r9 _, ?_, ?_, ?_⟩
      · simp; omega
      · simp; omega
      · rw [hk', Nat.sub_self, List.take_zero, List.nil_append, List.nil_append, np _ (r0 _)]
        simp [sgn]
    · refine ⟨true, D.take (D.length - k) ++ List.replicate k '9', D.take (D.length - k) ++ List.replicate k '0', al _ _ (r9 _), al _ _ (r0 _), ?_, ?_, ?_⟩
      · simp; omega
      · simp; omega
      · rw [show D.length + 1 - k = (D.length - k) + 1 by omega, List.take_succ_cons]
        simp [sgn, hasPrefix, List.isPrefixOf]

/-- C24: the cases in which the two computed years are not of four digits; all
are rejected.  Years below 1000 lose their leading zeros, so that even two
significant digits of "0050" are an error. -/
theorem C24_short_partial (neg : Bool) {n : Nat} (hn : n < 10000) {ds : List Nat} (hd : ∀ d ∈ ds, d < 10) (hne : ds ≠ [])
    (hk : value10 ds ≤ plainLen (⟨neg, n, .none⟩ : Date0).value)
    (hc : (n < 1000 ∧ value10 ds < 4) ∨ (n < 100) ∨ value10 ds = 5) :
    ∃ k w, parseString ((⟨neg, n, .none⟩ : Date0).text ++ 'S' :: ds.map dig) = .err (Invalid k w) := by
  rw [date0_year]
  have e := sig_eq (neg := neg) hn (all_dig hd) (by simpa using hne)
  rw [digitsVal_map ds hd] at e
  rw [e]
  have hv' : (⟨neg, n, .none⟩ : Date0).value = if neg then -(n : Int) else n := rfl
  rw [hv'] at hk
  have hv : (if neg then -(n : Int) else n).natAbs = n := by split <;> omega
  generalize (if neg then -(n : Int) else (n : Int)) = v at *
  generalize yearStr neg n ++ 'S' :: ds.map dig = s
  unfold sigTail
  have hp : plainLen v ≤ 5 := by
    unfold plainLen
    repeat' split
    all_goals omega
  rw [if_neg (lt63 (by omega))]
  obtain ⟨b, u, w, hu, hw, lu, lw, es⟩ := sigString_gen (v := v) (by omega) hk
  rw [es, Res.ok_bind]
  have ns : ∀ x : Str, x.all isDig = true → '/' ∉ sgn b x := by
    intro x hx h
    have : '/' ∈ x := by
      cases b
      · exact h
      · rcases List.mem_cons.1 h with h | h
        · exact absurd h (by decide)
        · exact h
    exact absurd (List.all_eq_true.1 hx _ this) (by decide)
  have l1 := natDigits_length_le (n := n) (k := 1) (by decide)
  have l2 := natDigits_length_le (n := n) (k := 2) (by decide)
  have l3 := natDigits_length_le (n := n) (k := 3) (by decide)
  have l4 := natDigits_length_le (n := n) (k := 4) (by decide)
  have l0 : (natDigits n).length ≠ 0 := by simpa using natDigits_ne_nil n
  rw [hv] at lu
  have hp' : n < 100 → value10 ds ≤ 3 := by
    intro h
    unfold plainLen at hk
    repeat' split at hk
    all_goals omega
  have hlen : u.length ≠ 4 := by omega
  have hu0 : u ≠ [] := by
    intro h
    subst h
    simp at lu
    omega
  rw [dateSpanFromEDTF_slash (ns u hu) (ns w hw)]
  have := (halfSpan_digits b hu hu0 hlen (Or.inl rfl)).1
  rw [List.append_nil] at this
  rw [this]
  exact ⟨_, _, rfl⟩

example : ∃ k w, parseString (c! "0050S2") = .err (Invalid k w) := C24_short_partial false (n := 50) (ds := [2]) (by decide) (by decide) (by decide) (by decide) (by decide)

/-- C24: too large a number of digits is rejected. -/
theorem C24_large_partial (neg : Bool) {n : Nat} (hn : n < 10000) {ds : List Nat} (hd : ∀ d ∈ ds, d < 10) (hne : ds ≠ [])
    (hk : 2 ^ 63 ≤ value10 ds ∨ 10 ^ plainLen (⟨neg, n, .none⟩ : Date0).value ≤ value10 ds) :
    parseString ((⟨neg, n, .none⟩ : Date0).text ++ 'S' :: ds.map dig) =
      .err (Invalid (c! "Significant digits") ((⟨neg, n, .none⟩ : Date0).text ++ 'S' :: ds.map dig)) := by
  rw [date0_year]
  have e := sig_eq (neg := neg) hn (all_dig hd) (by simpa using hne)
  rw [digitsVal_map ds hd] at e
  rw [e]
  exact if_pos hk

example : 10 ^ plainLen (⟨false, 1950, .none⟩ : Date0).value ≤ value10 [1, 0, 0, 0, 0] := by decide

/-- C24: a negative year of three digits loses its minus sign when four digits
are asked for: "-0950S4" is the years 0 to 9999. -/
theorem C24_minus_partial (hf : DayCount f) {n : Nat} (h1 : 100 ≤ n) (h2 : n < 1000) {ds : List Nat} (hd : ∀ d ∈ ds, d < 10) (hne : ds ≠ [])
    (hk : value10 ds = 4) :
    parseString ((⟨true, n, .none⟩ : Date0).text ++ 'S' :: ds.map dig) = .ok
      { start := some ((⟨false, 0, .none⟩ : Date0).range f (c! "0000") 0 0 Prec.YEAR)
        stop := some ((⟨false, 9999, .none⟩ : Date0).range f (c! "9999") 0 0 Prec.YEAR)
        edtf := (⟨true, n, .none⟩ : Date0).text ++ 'S' :: ds.map dig
        level := 2
        feature := c! "Significant digits" } := by
  rw [date0_year]
  have e := sig_eq (neg := true) (n := n) (by omega) (all_dig hd) (by simpa using hne)
  rw [digitsVal_map ds hd, hk] at e
  rw [e]
  generalize yearStr true n ++ 'S' :: ds.map dig = s
  have hv : (if true then -(n : Int) else n).natAbs = n := by simp
  have hl := itoa_length (v := if true then -(n : Int) else n) (by omega)
  have hp : plainLen (if true then -(n : Int) else n) = 4 := by
    unfold plainLen
    rw [hv, if_neg (by omega), if_neg (by omega), if_pos h2, if_pos (by simp; omega)]
  unfold sigTail
  rw [if_neg (lt63 (by omega))]
  have es : L2.sigString (if true then -(n : Int) else n) 4 = .ok (c! "0000/9999") := by
    rw [hp] at hl
    unfold L2.sigString
    generalize itoa (if true then -(n : Int) else n) = w at *
    simp only [hl]
    rfl
  rw [es, Res.ok_bind]
  have hl' : (Side.date ⟨false, 0, .none⟩).ok := by exact ⟨by decide, trivial⟩
  have hr' : (Side.date ⟨false, 9999, .none⟩).ok := by exact ⟨by decide, trivial⟩
  rw [show (c! "0000/9999" : Str) = (Side.date ⟨false, 0, .none⟩).text ++ '/' :: (Side.date ⟨false, 9999, .none⟩).text from by decide,
    span_sides hl' hr', Res.ok_bind, side_congr hf hl', side_congr hf hr']
  rfl

example : (⟨true, 950, .none⟩ : Date0).text ++ 'S' :: [4].map dig = c! "-0950S4" := by decide

/-- C24: the program panics when more digits are asked for than the year has
characters (without leading zeros), if the number is not longer than the year. -/
theorem C24_panic_partial (neg : Bool) {n : Nat} (hn : n < 10000) {ds : List Nat} (hd : ∀ d ∈ ds, d < 10) (hne : ds ≠ [])
    (h1 : plainLen (⟨neg, n, .none⟩ : Date0).value < value10 ds) (h2 : value10 ds < 10 ^ plainLen (⟨neg, n, .none⟩ : Date0).value) :
    parseString ((⟨neg, n, .none⟩ : Date0).text ++ 'S' :: ds.map dig) = .panic := by
  rw [date0_year]
  have e := sig_eq (neg := neg) hn (all_dig hd) (by simpa using hne)
  rw [digitsVal_map ds hd] at e
  rw [e]
  have hv' : (⟨neg, n, .none⟩ : Date0).value = if neg then -(n : Int) else n := rfl
  rw [hv'] at h1 h2
  have hl := itoa_length (v := if neg then -(n : Int) else n) (by split <;> omega)
  have hp : plainLen (if neg then -(n : Int) else n) ≤ 5 := by
    unfold plainLen
    repeat' split
    all_goals omega
  have : 10 ^ plainLen (if neg then -(n : Int) else n) ≤ 10 ^ 5 := Nat.pow_le_pow_right (by decide) hp
  unfold sigTail
  rw [if_neg (by omega)]
  unfold L2.sigString
  simp only [hl]
  rw [if_pos h1]
  rfl

example : parseString (c! "0050S3") = .panic := C24_panic_partial false (n := 50) (ds := [3]) (by decide) (by decide) (by decide) (by decide) (by decide)

end EDTF
