/- The exact result of the shared date code on every string, unspecified digits included. -/
import Verif.LemmasErr
namespace EDTF
open Spec

/-- The smallest value of a digit that may be unspecified. -/
def loD (c : Char) : Nat := if c = 'X' then 0 else digVal c
/-- The largest value of a digit that may be unspecified. -/
def hiD (c : Char) : Nat := if c = 'X' then 9 else digVal c

/-- First and last year and precision for the text of a year. -/
inductive YearSpan : Str → Int → Int → Prec → Prop
  | plain (neg : Bool) (n : Nat) (h : n < 10000) :
      YearSpan (yearStr neg n) (if neg then -(n : Int) else n) (if neg then -(n : Int) else n) Prec.YEAR
  | x (a b c : Char) (ha : isDig a = true) (hb : isDX b = true) (hc : isDX c = true) :
      YearSpan [a, b, c, 'X'] ((1000 * digVal a + 100 * loD b + 10 * loD c : Nat) : Int)
        ((1000 * digVal a + 100 * hiD b + 10 * hiD c + 9 : Nat) : Int)
        (if isDig c then Prec.DECADE else if isDig b then Prec.CENTURY else Prec.MILLENIUM)

/-- First and last month. -/
inductive MonthSpan : Str → Nat → Nat → Prop
  | none : MonthSpan [] 1 12
  | plain (m : Nat) (h1 : 1 ≤ m) (h2 : m ≤ 12) : MonthSpan (pad2 m) m m
  | xx : MonthSpan ['X', 'X'] 1 12
  | dx (c : Char) (h : c = '0' ∨ c = '1') : MonthSpan [c, 'X'] 10 12

/-- First and last day; `l1` and `l2` are the lengths of the first and last month. -/
inductive DaySpan : Str → Nat → Nat → Nat → Nat → Prop
  | none (l1 l2 : Nat) : DaySpan [] l1 l2 1 l2
  | plain (l1 l2 d : Nat) (h1 : 1 ≤ d) (h2 : d ≤ 31) : DaySpan (pad2 d) l1 l2 d d
  | zero (l1 l2 : Nat) : DaySpan (pad2 0) l1 l2 l1 l2
  | xx (l1 l2 : Nat) : DaySpan ['X', 'X'] l1 l2 1 l2
  | x1 (l1 l2 : Nat) : DaySpan ['1', 'X'] l1 l2 10 19
  | x2 (l1 l2 : Nat) : DaySpan ['2', 'X'] l1 l2 20 29
  | x3 (l1 l2 : Nat) : DaySpan ['3', 'X'] l1 l2 30 l2

/-- The precision reported. -/
def datePrec (py : Prec) (mx dx : Str) : Prec :=
  if dx = ['X', 'X'] ∧ mx = ['X', 'X'] then Prec.YEAR
  else if dx = ['X', 'X'] then Prec.MONTH
  else if mx = ['0', 'X'] ∨ mx = ['1', 'X'] then Prec.MONTH
  else py

theorem isDX_cases {c : Char} (h : isDX c = true) : (isDig c = true ∧ c ≠ 'X') ∨ c = 'X' := by
  unfold isDX at h
  rcases Bool.or_eq_true _ _ ▸ h with h | h
  · exact .inl ⟨h, isDig_ne h (by decide)⟩
  · exact .inr (by simpa using h)

theorem loD_le (c : Char) (h : isDX c = true) : loD c ≤ hiD c ∧ hiD c ≤ 9 := by
  unfold loD hiD
  rcases isDX_cases h with ⟨h1, h2⟩ | h
  · have := digVal_lt h1; simp [h2]; omega
  · simp [h]

theorem parseInt_digit {c : Char} (h : isDig c = true) : parseInt 32 [c] = some (digVal c : Int) := by
  have hd : ([c] : Str).all isDig = true := by simp [h]
  rw [parseInt_digits 32 hd (by simp), digitsVal_singleton, if_pos (by have := digVal_lt h; omega)]

theorem yearDigit_eq {c : Char} (h : isDX c = true) (k : Nat) (p q : Prec) :
    yearDigit c k p q = .ok (((loD c * k : Nat) : Int), ((hiD c * k : Nat) : Int), if isDig c then q else p) := by
  unfold yearDigit loD hiD
  rcases isDX_cases h with ⟨h1, h2⟩ | h
  · rw [if_pos h2, parseInt_digit h1]; simp [h1, h2]
  · subst h; simp [show isDig 'X' = false from rfl]

theorem yearRange_x (e : Str) {a b c : Char} (ha : isDig a = true) (hb : isDX b = true) (hc : isDX c = true) :
    yearRange e [a, b, c, 'X'] =
      .ok (itoa ((1000 * digVal a + 100 * loD b + 10 * loD c : Nat) : Int),
           itoa ((1000 * digVal a + 100 * hiD b + 10 * hiD c + 9 : Nat) : Int),
           if isDig c then Prec.DECADE else if isDig b then Prec.CENTURY else Prec.MILLENIUM) := by
  have hs : hasSuffix [a, b, c, 'X'] (c! "X") = true := by have := hasSuffix_X4 (a := a) (b := b) (c := c) (d := 'X') false; simpa [sgn] using this
  unfold yearRange
  rw [hs]
  have hX : isDX 'X' = true := by decide
  simp only [Bool.not_true, Bool.false_eq_true, if_false, idx, List.getElem?_cons_zero, List.getElem?_cons_succ, Res.ok_bind,
    isDig_ne ha (show isDig 'X' = false from rfl), parseInt_digit ha, Res.ofOption_some]
  rw [show (100 : Int) = ((100 : Nat) : Int) from rfl, show (10 : Int) = ((10 : Nat) : Int) from rfl,
    show (1 : Int) = ((1 : Nat) : Int) from rfl]
  simp only [yearDigit_eq hb, yearDigit_eq hc, yearDigit_eq hX, Res.ok_bind, show isDig 'X' = false from rfl,
    Bool.false_eq_true, if_false]
  have e1 : ((digVal a : Int) * 1000 + ((loD b * 100 : Nat) : Int) + ((loD c * 10 : Nat) : Int) + ((loD 'X' * 1 : Nat) : Int)) =
      ((1000 * digVal a + 100 * loD b + 10 * loD c : Nat) : Int) := by simp [loD]; omega
  have e2 : ((digVal a : Int) * 1000 + ((hiD b * 100 : Nat) : Int) + ((hiD c * 10 : Nat) : Int) + ((hiD 'X' * 1 : Nat) : Int)) =
      ((1000 * digVal a + 100 * hiD b + 10 * hiD c + 9 : Nat) : Int) := by simp [hiD]; omega
  rw [e1, e2]

theorem itoa_nat_digits (n : Nat) : (itoa (n : Int)).all isDig = true := by
  unfold itoa; rw [if_neg (by omega)]; exact natDigits_all _

/-- What the strings made by `yearRange` are. -/
theorem year_strs {x : Str} {y1 y2 : Int} {p : Prec} (h : YearSpan x y1 y2 p) :
    ∃ ys ye, (∀ e, yearRange e x = .ok (ys, ye, p)) ∧ ys ≠ [] ∧ ye ≠ [] ∧ atoi ys = some y1 ∧ atoi ye = some y2 ∧
      (∃ neg ds, ds.all isDig = true ∧ ye = sgn neg ds) ∧ (ys = ye ↔ y1 = y2) ∧ y1.natAbs < 10000 ∧ y2.natAbs < 10000 ∧
      y1 ≤ y2 ∧ p ≠ 0 := by
  cases h with
  | plain neg n h =>
    refine ⟨_, _, fun e => yearRange_plain e (suffix_yearStr neg n), yearStr_ne_nil _ _, yearStr_ne_nil _ _,
      atoi_yearStr neg h, atoi_yearStr neg h, ⟨neg, pad4 n, pad4_all n, rfl⟩, by simp, ?_, ?_, Int.le_refl _, by decide⟩ <;>
      cases neg <;> simp <;> omega
  | x a b c ha hb hc =>
    have h1 := loD_le b hb
    have h2 := loD_le c hc
    have h3 := digVal_lt ha
    have l1 : atoi (itoa ((1000 * digVal a + 100 * loD b + 10 * loD c : Nat) : Int)) = _ := atoi_itoa_nat (by omega)
    have l2 : atoi (itoa ((1000 * digVal a + 100 * hiD b + 10 * hiD c + 9 : Nat) : Int)) = _ := atoi_itoa_nat (by omega)
    refine ⟨_, _, fun e => yearRange_x e ha hb hc, itoa_ne_nil _, itoa_ne_nil _, l1, l2,
      ⟨false, _, itoa_nat_digits _, rfl⟩, ⟨fun e => ?_, fun e => ?_⟩, by omega, by omega, by omega, ?_⟩
    · rw [e] at l1; rw [l1] at l2; injection l2
    · omega
    · by_cases c1 : isDig c = true <;> by_cases b1 : isDig b = true <;> simp [c1, b1] <;> decide

theorem month_strs {x : Str} {m1 m2 : Nat} (h : MonthSpan x m1 m2) {p : Prec} (hp : p ≠ 0) :
    1 ≤ m1 ∧ m1 ≤ m2 ∧ m2 ≤ 12 ∧
    (if (monthRange x p).1 = [] then c! "01" else (monthRange x p).1) = pad2 m1 ∧
    (if (monthRange x p).2.1 = [] then c! "12" else (monthRange x p).2.1) = pad2 m2 ∧
    (monthRange x p).2.2 = (if x = ['0', 'X'] ∨ x = ['1', 'X'] then Prec.MONTH else p) := by
  have hp' : p ≠ Prec.NONE := hp
  cases h with
  | none => simp [monthRange, suffix_nil, lit01, lit12]
  | plain _ h1 h2 =>
    have hs := suffix_pad2 m1
    have n1 : pad2 m1 ≠ ['0', 'X'] := fun e => by simp [pad2] at e; exact absurd e.2 (dig_mod_ne m1 (by decide))
    have n2 : pad2 m1 ≠ ['1', 'X'] := fun e => by simp [pad2] at e; exact absurd e.2 (dig_mod_ne m1 (by decide))
    refine ⟨h1, Nat.le_refl _, h2, ?_⟩
    simp [monthRange, hs, hp', pad2_ne_nil, n1, n2]
  | xx =>
    have hs : hasSuffix ['X', 'X'] ['X'] = true := by decide
    have hq : hasPrefix ['X', 'X'] ['X'] = true := by decide
    simp [monthRange, hs, hq, lit01, lit12]
  | dx c h =>
    have hs : hasSuffix [c, 'X'] ['X'] = true := by rcases h with rfl | rfl <;> decide
    have hq : hasPrefix [c, 'X'] ['X'] = false := by rcases h with rfl | rfl <;> decide
    simp [monthRange, hs, hq]
    rcases h with rfl | rfl <;> exact ⟨by decide, by decide, by simp⟩

theorem day_strs {x : Str} {l1 l2 d1 d2 : Nat} (h : DaySpan x l1 l2 d1 d2) (h1 : 28 ≤ l1 ∧ l1 ≤ 31)
    (h2 : 28 ≤ l2 ∧ l2 ≤ 31) {p : Prec} (hp : p ≠ 0) (e : Str) :
    ∃ e1 e2 s1 s2, dayRange e x p = .ok (s1, s2, p) ∧ e1 ≤ 31 ∧ e2 ≤ 31 ∧
      (if s1 = [] then c! "01" else s1) = pad2 e1 ∧ ((s2 = [] ∧ e2 = l2) ∨ s2 = pad2 e2) ∧
      d1 = (if e1 = 0 then l1 else e1) ∧ d2 = (if e2 = 0 then l2 else e2) ∧ (l1 = l2 → (e1 = e2 ↔ d1 = d2)) ∧
      (e1 = e2 → l1 = l2 → d1 = d2) := by
  have hp' : p ≠ Prec.NONE := hp
  cases h with
  | none => refine ⟨1, l2, [], [], ?_, by omega, by omega, by decide, .inl ⟨rfl, rfl⟩, ?_⟩
            · simp [dayRange, suffix_nil]
            · simp; omega
  | plain _ _ _ k1 k2 =>
    refine ⟨d1, d1, pad2 d1, pad2 d1, ?_, k2, k2, by simp [pad2_ne_nil], .inr rfl, ?_⟩
    · simp [dayRange, suffix_pad2, hp']
    · have : d1 ≠ 0 := by omega
      simp [this]
  | zero =>
    refine ⟨0, 0, pad2 0, pad2 0, ?_, by omega, by omega, by decide, .inr rfl, ?_⟩
    · simp [dayRange, suffix_pad2, hp']
    · simp
  | xx => refine ⟨1, l2, c! "01", [], ?_, by omega, by omega, by decide, .inl ⟨rfl, rfl⟩, ?_⟩
          · rfl
          · simp; omega
  | x1 => exact ⟨10, 19, c! "10", c! "19", rfl, by decide, by decide, by decide, .inr (by decide), by simp⟩
  | x2 => exact ⟨20, 29, c! "20", c! "29", rfl, by decide, by decide, by decide, .inr (by decide), by simp⟩
  | x3 => refine ⟨30, l2, c! "30", [], rfl, by omega, by omega, by decide, .inl ⟨rfl, rfl⟩, ?_⟩
          simp; omega

/-- Sameness of first and last day. -/
def sameDay (y1 : Int) (m1 d1 : Nat) (y2 : Int) (m2 d2 : Nat) : Bool := decide (y1 = y2 ∧ m1 = m2 ∧ d1 = d2)

theorem rangeOf_span (e : Str) {x mx dx : Str} {y1 y2 : Int} {m1 m2 d1 d2 : Nat} {py : Prec} (ua : Prec × Prec)
    (hy : YearSpan x y1 y2 py) (hm : MonthSpan mx m1 m2)
    (hd : DaySpan dx (monthLen y1 m1) (monthLen y2 m2) d1 d2) :
    ∃ ys ye e1 e2,
      rangeOf e x mx dx ua = .ok ⟨⟨ys, pad2 m1, pad2 e1⟩, ⟨ye, pad2 m2, pad2 e2⟩, datePrec py mx dx, ua.1, ua.2⟩ ∧
      ys ≠ [] ∧ ye ≠ [] ∧ atoi ys = some y1 ∧ atoi ye = some y2 ∧ y1.natAbs < 10000 ∧ y2.natAbs < 10000 ∧
      e1 ≤ 31 ∧ e2 ≤ 31 ∧ d1 = (if e1 = 0 then monthLen y1 m1 else e1) ∧ d2 = (if e2 = 0 then monthLen y2 m2 else e2) ∧
      ((ys = ye ∧ m1 = m2 ∧ e1 = e2) ↔ (y1 = y2 ∧ m1 = m2 ∧ d1 = d2)) := by
  obtain ⟨ys, ye, hyr, n1, n2, a1, a2, ⟨neg, ds, hds, hye⟩, hiff, k1, k2, hle, hp⟩ := year_strs hy
  obtain ⟨q1, q2, q3, hs, hs2, hpm⟩ := month_strs hm hp
  have hp2 : (monthRange mx py).2.2 ≠ 0 := by
    rw [hpm]; split
    · decide
    · exact hp
  obtain ⟨e1, e2, s1, s2, hdr, b1, b2, hse, hee, hd1, hd2, hsame, -⟩ :=
    day_strs hd (monthLen_pos y1 m1) (monthLen_pos y2 m2) hp2 e
  refine ⟨ys, ye, e1, e2, ?_, n1, n2, a1, a2, k1, k2, b1, b2, hd1, hd2, ?_⟩
  · unfold rangeOf
    rw [hyr e]
    simp only [Res.ok_bind, hdr, hs, hs2, hse]
    have hend : endDay s2 ye (pad2 m2) = .ok (pad2 e2) := by
      unfold endDay
      rcases hee with ⟨rfl, rfl⟩ | rfl
      · rw [if_pos rfl, hye, daysInMonthWithString_eq neg hds (pad2_all m2) (hye ▸ a2) (atoi_pad2 (by omega)) k2
          (by omega) q3]
        simp only [Res.ok_bind]
        have := monthLen_pos y2 m2
        rw [itoa_two (by omega) (by omega)]
      · rw [if_neg (by simp [pad2])]
    rw [hend]
    simp only [Res.ok_bind, hpm, datePrec]
  · constructor
    · rintro ⟨u, v, w⟩
      have := hiff.1 u
      exact ⟨this, v, (hsame (by rw [this, v])).1 w⟩
    · rintro ⟨u, v, w⟩
      exact ⟨hiff.2 u, v, (hsame (by rw [u, v])).2 w⟩

/-- Success: the span of a form whose first and last day exist. -/
theorem dateSpan_form {F : YMDForm} (hF : F.ok) {y1 y2 : Int} {m1 m2 d1 d2 : Nat} {py : Prec}
    (hy : YearSpan F.yx y1 y2 py) (hm : MonthSpan F.mx m1 m2)
    (hd : DaySpan F.dx (monthLen y1 m1) (monthLen y2 m2) d1 d2) (v1 : Valid y1 m1 d1) (v2 : Valid y2 m2 d2) :
    dateSpanFromYMD F.text = .ok (spanRec F.text y1 m1 d1 y2 m2 d2 (sameDay y1 m1 d1 y2 m2 d2)
      (marked saysUncertain F.yc.q F.mq F.dq) (marked saysApproximate F.yc.q F.mq F.dq) (datePrec py F.mx F.dx)) := by
  have hq := F.deco_ok hF
  obtain ⟨ys, ye, e1, e2, hr, n1, n2, a1, a2, k1, k2, b1, b2, hd1, hd2, hsame⟩ :=
    rangeOf_span F.text (marked saysUncertain F.yc.q F.mq F.dq, marked saysApproximate F.yc.q F.mq F.dq) hy hm hd
  have hr' := stringRange_form hF
  rw [qualFlags_eq hq.1 hq.2.1 hq.2.2, hr] at hr'
  have l1 := monthLen_pos y1 m1
  have l2 := monthLen_pos y2 m2
  have s1 : ymdFromStrings ys (pad2 m1) (pad2 e1) = .ok ⟨y1, m1, d1⟩ := by
    rw [ymdFromStrings_eq n1 (by simp) (by simp) a1 (atoi_pad2 (by have := v1.2.1; omega)) (atoi_pad2 (by omega)) k1 v1.1
      v1.2.1, if_pos (by have := v1.2.2.2; rw [hd1] at this; split at this <;> omega), hd1]
    split <;> rfl
  have s2 : ymdFromStrings ye (pad2 m2) (pad2 e2) = .ok ⟨y2, m2, d2⟩ := by
    rw [ymdFromStrings_eq n2 (by simp) (by simp) a2 (atoi_pad2 (by have := v2.2.1; omega)) (atoi_pad2 (by omega)) k2 v2.1
      v2.2.1, if_pos (by have := v2.2.2.2; rw [hd2] at this; split at this <;> omega), hd2]
    split <;> rfl
  rw [dateSpan_of_range hr' s1 s2 k1 k2 v1 v2]
  congr 2
  rw [stringDate_equals]
  unfold sameDay
  congr 1
  rw [← hsame, StringDate.mk.injEq]
  apply propext
  constructor
  · rintro ⟨u, v, w⟩
    exact ⟨u.symm, (pad2_inj (by have := v2.2.1; omega) (by have := v1.2.1; omega) v).symm,
      (pad2_inj (by omega) (by omega) w).symm⟩
  · rintro ⟨u, v, w⟩
    exact ⟨u.symm, by rw [v], by rw [w]⟩

/-! ### The converse -/

theorem parseInt_dash : parseInt 32 ['-'] = none := by decide

/-- When `yearRange` succeeds and the years are numbers, the text is as in `YearSpan`. -/
theorem yearSpan_of_ok {e x : Str} (hx : Lang Rx.yearX x) {ys ye : Str} {p : Prec} {y : Int}
    (h : yearRange e x = .ok (ys, ye, p)) (hy : atoi ys = some y) : ∃ y1 y2, YearSpan x y1 y2 p := by
  obtain ⟨neg, a, b, c, d, rfl, ha, hb, hc, hd⟩ := lang_yearX.1 hx
  by_cases hX : d = 'X'
  · subst hX
    have hs : hasSuffix (sgn neg [a, b, c, 'X']) (c! "X") = true := by rw [hasSuffix_X4]; rfl
    cases neg with
    | true =>
      exfalso
      unfold yearRange at h
      rw [hs] at h
      simp [sgn, idx, parseInt_dash] at h
    | false =>
      simp only [sgn, Bool.false_eq_true, if_false] at h hs ⊢
      rcases isDX_cases ha with ⟨ha', -⟩ | rfl
      · rw [yearRange_x e ha' hb hc] at h
        injection h with h
        injection h with _ h
        injection h with _ h
        subst h
        exact ⟨_, _, YearSpan.x a b c ha' hb hc⟩
      · exfalso
        unfold yearRange at h
        rw [hs] at h
        simp [idx] at h
  · have hs : hasSuffix (sgn neg [a, b, c, d]) (c! "X") = false := by rw [hasSuffix_X4]; simpa using hX
    rw [yearRange_plain e hs] at h
    injection h with h
    injection h with h1 h
    injection h with _ h
    subst h1 h
    -- the number can only be read when all four are digits
    have hall : ([a, b, c, d] : Str).all isDig = true := by
      cases hall : ([a, b, c, d] : Str).all isDig with
      | true => rfl
      | false =>
        exfalso
        have hne : a ≠ '-' ∧ a ≠ '+' := by
          rcases isDX_cases ha with ⟨h1, -⟩ | h1
          · exact ⟨isDig_ne h1 (by decide), isDig_ne h1 (by decide)⟩
          · subst h1; decide
        unfold atoi parseInt at hy
        cases neg with
        | true => simp only [sgn, if_true, hall] at hy; simp at hy
        | false =>
          simp only [sgn, Bool.false_eq_true, if_false] at hy
          split at hy
          · rename_i heq; injection heq with h1 _; exact hne.1 h1
          · rename_i heq; injection heq with h1 _; exact hne.2 h1
          · simp [hall] at hy
    obtain ⟨n, hn, e1⟩ := four_digits' hall rfl
    refine ⟨if neg then -(n : Int) else n, if neg then -(n : Int) else n, ?_⟩
    rw [e1]
    exact YearSpan.plain neg n hn

theorem two_atoi {a b : Char} {v : Int} (ha : isDX a = true) (hb : isDX b = true) (h : atoi [a, b] = some v) :
    ∃ n, n < 100 ∧ [a, b] = pad2 n ∧ v = n := by
  have hall : ([a, b] : Str).all isDig = true := by
    cases hall : ([a, b] : Str).all isDig with
    | true => rfl
    | false =>
      exfalso
      have hne : a ≠ '-' ∧ a ≠ '+' := by
        rcases isDX_cases ha with ⟨h1, -⟩ | h1
        · exact ⟨isDig_ne h1 (by decide), isDig_ne h1 (by decide)⟩
        · subst h1; decide
      unfold atoi parseInt at h
      split at h
      · rename_i heq; injection heq with h1 _; exact hne.1 h1
      · rename_i heq; injection heq with h1 _; exact hne.2 h1
      · simp [hall] at h
  obtain ⟨n, hn, e⟩ := two_digits' hall rfl
  refine ⟨n, hn, e, ?_⟩
  rw [e, atoi_pad2 hn] at h
  injection h with h; exact h.symm

/-- Inversion of `ymdFromStrings` for non-empty texts. -/
theorem ymdFromStrings_atoi {ys ms ds : Str} {v : YMD} (h : ymdFromStrings ys ms ds = .ok v) (hm : ms ≠ []) (hd : ds ≠ []) :
    (∃ y, atoi ys = some y) ∧ (∃ m, atoi ms = some m) ∧ (∃ d, atoi ds = some d) := by
  unfold ymdFromStrings at h
  split at h
  · cases h
  · split at h
    · cases h
    · obtain ⟨y, h1, h⟩ := Res.bind_eq_ok.1 h
      obtain ⟨m, h2, h⟩ := Res.bind_eq_ok.1 h
      obtain ⟨d, h3, h⟩ := Res.bind_eq_ok.1 h
      unfold atoiOrZero at h2 h3
      rw [if_pos hm] at h2
      rw [if_pos hd] at h3
      exact ⟨⟨y, Res.ofOption_eq_ok.1 h1⟩, ⟨m, Res.ofOption_eq_ok.1 h2⟩, ⟨d, Res.ofOption_eq_ok.1 h3⟩⟩

theorem monthSpan_of_ok {mx : Str} (hx : mx = [] ∨ Lang Rx.monthX mx) {p : Prec}
    (h : ∃ m, atoi (if (monthRange mx p).1 = [] then c! "01" else (monthRange mx p).1) = some m) :
    ∃ m1 m2, MonthSpan mx m1 m2 := by
  rcases hx with rfl | hx
  · exact ⟨_, _, .none⟩
  · obtain ⟨a, b, rfl, ha, hb⟩ := lang_monthX_DX hx
    have hl := lang_monthX_iff.1 hx
    by_cases hX : b = 'X'
    · subst hX
      rcases isDX_cases ha with ⟨h1, h2⟩ | rfl
      · refine ⟨_, _, .dx a ?_⟩
        rcases hl with ⟨h, -⟩ | ⟨h, -⟩
        · exact .inl (h.resolve_right h2)
        · exact .inr (h.resolve_right h2)
      · exact ⟨_, _, .xx⟩
    · have hs : hasSuffix [a, b] (c! "X") = false := by rw [hasSuffix_X2]; simpa using hX
      obtain ⟨m, h⟩ := h
      have e : (monthRange [a, b] p).1 = [a, b] := by unfold monthRange; rw [hs]; rfl
      rw [e, if_neg (by simp)] at h
      obtain ⟨n, hn, e, -⟩ := two_atoi ha hb h
      rw [e] at hx ⊢
      -- the pattern admits 01..12 only
      have key : 1 ≤ n ∧ n ≤ 12 := by
        have hl := lang_monthX_iff.1 (show Lang Rx.monthX [dig (n / 10 % 10), dig (n % 10)] from hx)
        have : ∀ n, n < 100 →
          (((dig (n / 10 % 10) = '0' ∨ dig (n / 10 % 10) = 'X') ∧
            (('1'.toNat ≤ (dig (n % 10)).toNat ∧ (dig (n % 10)).toNat ≤ '9'.toNat) ∨ dig (n % 10) = 'X')) ∨
          ((dig (n / 10 % 10) = '1' ∨ dig (n / 10 % 10) = 'X') ∧
            (('0'.toNat ≤ (dig (n % 10)).toNat ∧ (dig (n % 10)).toNat ≤ '2'.toNat) ∨ dig (n % 10) = 'X'))) →
          1 ≤ n ∧ n ≤ 12 := by decide +kernel
        exact this n hn hl
      exact ⟨n, n, .plain n key.1 key.2⟩

theorem daySpan_of_ok {e dx : Str} (hx : dx = [] ∨ Lang Rx.dayX dx) {p q : Prec} {s1 s2 : Str}
    (h : dayRange e dx p = .ok (s1, s2, q)) (ha : ∃ d, atoi (if s1 = [] then c! "01" else s1) = some d) (l1 l2 : Nat) :
    ∃ d1 d2, DaySpan dx l1 l2 d1 d2 := by
  rcases hx with rfl | hx
  · exact ⟨_, _, .none _ _⟩
  · obtain ⟨a, b, rfl, hda, hdb⟩ := lang_dayX_DX hx
    have hl := lang_dayX_iff.1 hx
    by_cases hX : b = 'X'
    · subst hX
      have hs : hasSuffix [a, 'X'] (c! "X") = true := by rw [hasSuffix_X2]; rfl
      unfold dayRange at h
      rw [hs] at h
      simp only [Bool.not_true, Bool.false_eq_true, if_false, idx, List.getElem?_cons_zero, Res.ok_bind] at h
      by_cases c1 : a = 'X'
      · subst c1; exact ⟨_, _, .xx _ _⟩
      · by_cases c2 : a = '1'
        · subst c2; exact ⟨_, _, .x1 _ _⟩
        · by_cases c3 : a = '2'
          · subst c3; exact ⟨_, _, .x2 _ _⟩
          · by_cases c4 : a = '3'
            · subst c4; exact ⟨_, _, .x3 _ _⟩
            · rw [if_neg c1, if_neg c2, if_neg c3, if_neg c4] at h; cases h
    · have hs : hasSuffix [a, b] (c! "X") = false := by rw [hasSuffix_X2]; simpa using hX
      unfold dayRange at h
      rw [hs] at h
      simp only [Bool.not_false, if_true] at h
      injection h with h
      injection h with h1 h
      subst h1
      obtain ⟨d, ha⟩ := ha
      rw [if_neg (by simp)] at ha
      obtain ⟨n, hn, e, -⟩ := two_atoi hda hdb ha
      have key : n ≤ 31 := by
        have hl := lang_dayX_iff.1 (show Lang Rx.dayX [dig (n / 10 % 10), dig (n % 10)] from (show Lang Rx.dayX (pad2 n) from e ▸ hx))
        have : ∀ n, n < 100 →
          (((dig (n / 10 % 10) = '0' ∨ dig (n / 10 % 10) = '1' ∨ dig (n / 10 % 10) = '2' ∨ dig (n / 10 % 10) = 'X') ∧
            isDX (dig (n % 10)) = true) ∨
          ((dig (n / 10 % 10) = '3' ∨ dig (n / 10 % 10) = 'X') ∧
            (dig (n % 10) = '0' ∨ dig (n % 10) = '1' ∨ dig (n % 10) = 'X'))) → n ≤ 31 := by decide +kernel
        exact this n hn hl
      rw [e]
      by_cases h0 : n = 0
      · subst h0; exact ⟨_, _, .zero _ _⟩
      · exact ⟨n, n, .plain _ _ n (by omega) key⟩

theorem YMDForm.mx_lang {F : YMDForm} (h : F.ok) : F.mx = [] ∨ Lang Rx.monthX F.mx := by
  cases F with
  | y a => exact .inl rfl
  | ym a b => exact .inr h.2.2
  | ymd a b c => exact .inr h.2.1.2

theorem YMDForm.dx_lang {F : YMDForm} (h : F.ok) : F.dx = [] ∨ Lang Rx.dayX F.dx := by
  cases F with
  | y a => exact .inl rfl
  | ym a b => exact .inl rfl
  | ymd a b c => exact .inr h.2.2.2

/-- Every success of the shared date code has the form given by `dateSpan_form`. -/
theorem dateSpan_inv {s : Str} {sp : DateSpan} (h : dateSpanFromYMD s = .ok sp) :
    ∃ (F : YMDForm) (y1 y2 : Int) (m1 m2 d1 d2 : Nat) (py : Prec), F.ok ∧ s = F.text ∧
      YearSpan F.yx y1 y2 py ∧ MonthSpan F.mx m1 m2 ∧ DaySpan F.dx (monthLen y1 m1) (monthLen y2 m2) d1 d2 ∧
      Valid y1 m1 d1 ∧ Valid y2 m2 d2 ∧
      sp = spanRec s y1 m1 d1 y2 m2 d2 (sameDay y1 m1 d1 y2 m2 d2)
        (marked saysUncertain F.yc.q F.mq F.dq) (marked saysApproximate F.yc.q F.mq F.dq) (datePrec py F.mx F.dx) := by
  have h0 := h
  unfold dateSpanFromYMD at h
  obtain ⟨r, hr, h⟩ := Res.bind_eq_ok.1 h
  obtain ⟨v1, hv1, h⟩ := Res.bind_eq_ok.1 h
  obtain ⟨v2, hv2, -⟩ := Res.bind_eq_ok.1 h
  have hform : ∃ F : YMDForm, F.ok ∧ s = F.text := by
    apply Classical.byContradiction
    intro hn
    rw [stringRange_none (fun F hF e => hn ⟨F, hF, e⟩)] at hr
    cases hr
  obtain ⟨F, hF, rfl⟩ := hform
  have hr0 := hr
  rw [stringRange_form hF] at hr
  unfold rangeOf at hr
  obtain ⟨⟨ys, ye, p⟩, hyr, hr⟩ := Res.bind_eq_ok.1 hr
  simp only at hr
  obtain ⟨⟨s1, s2, p2⟩, hdr, hr⟩ := Res.bind_eq_ok.1 hr
  simp only at hr
  obtain ⟨ed, hed, hr⟩ := Res.bind_eq_ok.1 hr
  injection hr with hr
  subst hr
  simp only at hv1 hv2
  have nm : (if (monthRange F.mx p).1 = [] then c! "01" else (monthRange F.mx p).1) ≠ [] := by
    split
    · decide
    · assumption
  have nd : (if s1 = [] then c! "01" else s1) ≠ [] := by
    split
    · decide
    · assumption
  obtain ⟨⟨y, ay⟩, am, ad⟩ := ymdFromStrings_atoi hv1 nm nd
  obtain ⟨y1, y2, hY⟩ := yearSpan_of_ok (F.yc_ok hF).2 hyr ay
  have hY : YearSpan F.yx y1 y2 p := hY
  obtain ⟨m1, m2, hM⟩ := monthSpan_of_ok (F.mx_lang hF) am
  obtain ⟨d1, d2, hD⟩ := daySpan_of_ok (F.dx_lang hF) hdr ad (monthLen y1 m1) (monthLen y2 m2)
  -- existence of the first and last day follows from the success
  obtain ⟨ys', ye', e1, e2, hro, n1, n2, a1, a2, k1, k2, b1, b2, hd1, hd2, hsame⟩ :=
    rangeOf_span F.text (qualFlags F.yc.q.qual F.mq.qual F.dq.qual) hY hM hD
  obtain ⟨q1, q2, q3, -⟩ := month_strs hM (p := Prec.YEAR) (by decide)
  rw [stringRange_form hF, hro] at hr0
  injection hr0 with hr0
  injection hr0 with hr1 hr2
  injection hr1 with i1 i2 i3
  injection hr2 with j1 j2 j3
  rw [← i1, ← i2, ← i3] at hv1
  rw [← j1, ← j2, ← j3] at hv2
  have val : ∀ {ys : Str} {y : Int} {m e d : Nat} {v : YMD}, ys ≠ [] → atoi ys = some y → y.natAbs < 10000 → 1 ≤ m → m ≤ 12 →
      e ≤ 31 → d = (if e = 0 then monthLen y m else e) → ymdFromStrings ys (pad2 m) (pad2 e) = .ok v → Valid y m d := by
    intro ys y m e d v n a k l1 l2 be hd h
    rw [ymdFromStrings_eq n (by simp) (by simp) a (atoi_pad2 (by omega)) (atoi_pad2 (by omega)) k l1 l2] at h
    have := monthLen_pos y m
    split at h
    · rw [hd]; refine ⟨l1, l2, ?_, ?_⟩ <;> split <;> omega
    · cases h
  have V1 := val n1 a1 k1 q1 (by omega) b1 hd1 hv1
  have V2 := val n2 a2 k2 (by omega) q3 b2 hd2 hv2
  have hfin := dateSpan_form hF hY hM hD V1 V2
  rw [h0] at hfin
  injection hfin with hfin
  exact ⟨F, y1, y2, m1, m2, d1, d2, _, hF, rfl, hY, hM, hD, V1, V2, hfin⟩

/-- First and last day are in order. -/
theorem span_ordered {x mx dx : Str} {y1 y2 : Int} {m1 m2 d1 d2 : Nat} {py : Prec} (hY : YearSpan x y1 y2 py)
    (hM : MonthSpan mx m1 m2) (hD : DaySpan dx (monthLen y1 m1) (monthLen y2 m2) d1 d2) (V1 : Valid y1 m1 d1) :
    dayLe y1 m1 d1 y2 m2 d2 := by
  obtain ⟨_, _, -, -, -, -, -, -, -, -, -, hle, -⟩ := year_strs hY
  obtain ⟨-, hm, -⟩ := month_strs hM (p := Prec.YEAR) (by decide)
  unfold dayLe
  by_cases e1 : y1 = y2
  · subst e1
    by_cases e2 : m1 = m2
    · subst e2
      refine .inr ⟨rfl, .inr ⟨rfl, ?_⟩⟩
      have := V1.2.2.2
      have := monthLen_pos y1 m1
      cases hD <;> omega
    · exact .inr ⟨rfl, .inl (by omega)⟩
  · exact .inl (by omega)

theorem yearSpan_lt {x : Str} {y1 y2 : Int} {p : Prec} (h : YearSpan x y1 y2 p) : y1.natAbs < 10000 ∧ y2.natAbs < 10000 := by
  obtain ⟨_, _, -, -, -, -, -, -, -, k1, k2, -⟩ := year_strs h
  exact ⟨k1, k2⟩

end EDTF
