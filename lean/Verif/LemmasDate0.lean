/- Level 0 dates with qualifiers: the span they denote. -/
import Verif.LemmasSpan
namespace EDTF
open Spec

/-! ### strings.Split -/

theorem splitChar_none {sep : Char} {u : Str} (h : sep ∉ u) : splitChar sep u = [u] := by
  induction u with
  | nil => rfl
  | cons c cs ih =>
    simp only [List.mem_cons, not_or] at h
    simp only [splitChar, if_neg (Ne.symm h.1), ih h.2]

theorem splitChar_append {sep : Char} {u : Str} (h : sep ∉ u) (v : Str) :
    splitChar sep (u ++ sep :: v) = u :: splitChar sep v := by
  induction u with
  | nil => simp [splitChar]
  | cons c cs ih =>
    simp only [List.mem_cons, not_or] at h
    simp only [List.cons_append, splitChar, if_neg (Ne.symm h.1), ih h.2]

theorem splitChar_ne_nil (sep : Char) (u : Str) : splitChar sep u ≠ [] := by
  cases u with
  | nil => simp [splitChar]
  | cons c cs =>
    simp only [splitChar]
    split
    · simp
    · split <;> simp

theorem digits_not_mem {s : Str} (h : s.all isDig = true) {c : Char} (hc : isDig c = false) : c ∉ s := by
  intro hm
  have := List.all_eq_true.1 h c hm
  rw [hc] at this; cases this

theorem dash_not_mem {s : Str} (h : s.all isDig = true) : '-' ∉ s := digits_not_mem h (by decide)

/-- calendar/calendar.go:13-44 on a signed digit string and a month. -/
theorem daysInMonthWithString_eq (neg : Bool) {ds ms : Str} (hd : ds.all isDig = true) (hm : ms.all isDig = true)
    {y : Int} {m : Nat} (ay : atoi (sgn neg ds) = some y) (am : atoi ms = some (m : Int))
    (hy : y.natAbs < 10000) (h1 : 1 ≤ m) (h2 : m ≤ 12) :
    daysInMonthWithString (sgn neg ds ++ c! "-" ++ ms) = .ok (monthLen y m : Int) := by
  have e1 : '-' ∉ ds := dash_not_mem hd
  have e2 : '-' ∉ ms := dash_not_mem hm
  have hsplit : splitChar '-' (ds ++ '-' :: ms) = [ds, ms] := by
    rw [splitChar_append e1, splitChar_none e2]
  unfold daysInMonthWithString
  cases neg
  · simp only [sgn, Bool.false_eq_true, if_false, List.append_assoc, List.cons_append, List.nil_append] at ay ⊢
    rw [hsplit]
    simp only [ay, am, Res.ofOption_some, Res.ok_bind, daysInMonth_eq hy h1 h2]
  · simp only [sgn, if_true, List.append_assoc, List.cons_append, List.nil_append] at ay ⊢
    rw [show splitChar '-' ('-' :: (ds ++ '-' :: ms)) = [] :: splitChar '-' (ds ++ '-' :: ms) from by simp [splitChar],
      hsplit]
    simp only [ay, am, Res.ofOption_some, Res.ok_bind, daysInMonth_eq hy h1 h2]

/-! ### Components without X -/

theorem hasSuffix_X4 {a b c d : Char} (neg : Bool) : hasSuffix (sgn neg [a, b, c, d]) (c! "X") = (d == 'X') := by
  cases neg <;> simp [hasSuffix, sgn, List.isSuffixOf, List.isPrefixOf, eq_comm, BEq.comm]

theorem hasSuffix_X2 {a b : Char} : hasSuffix [a, b] (c! "X") = (b == 'X') := by
  simp [hasSuffix, List.isSuffixOf, List.isPrefixOf, BEq.comm]

theorem isDig_beq_X {c : Char} (h : isDig c = true) : (c == 'X') = false := by
  have := isDig_ne h (x := 'X') (by decide)
  simpa using this

theorem dig_beq_X (n : Nat) : (dig (n % 10) == 'X') = false := isDig_beq_X (isDig_dig n)

theorem yearRange_plain (e : Str) {x : Str} (h : hasSuffix x (c! "X") = false) : yearRange e x = .ok (x, x, Prec.YEAR) := by
  unfold yearRange; rw [h]; rfl

theorem monthRange_plain {x : Str} (h : hasSuffix x (c! "X") = false) : monthRange x Prec.YEAR = (x, x, Prec.YEAR) := by
  unfold monthRange; rw [h]
  simp [show Prec.YEAR ≠ Prec.NONE by decide]

theorem dayRange_plain (e : Str) {x : Str} (h : hasSuffix x (c! "X") = false) :
    dayRange e x Prec.YEAR = .ok (x, x, Prec.YEAR) := by
  unfold dayRange; rw [h]
  simp [show Prec.YEAR ≠ Prec.NONE by decide]

theorem suffix_pad2 (m : Nat) : hasSuffix (pad2 m) (c! "X") = false := by
  unfold pad2; rw [hasSuffix_X2, dig_beq_X]

theorem suffix_nil : hasSuffix [] (c! "X") = false := by decide

theorem pad2_ne_XX (m : Nat) : pad2 m ≠ c! "XX" := by
  unfold pad2
  intro h
  simp only [List.cons.injEq, and_true] at h
  exact dig_mod_ne m (by decide) h.2

/-- The written year. -/
def yearStr (neg : Bool) (n : Nat) : Str := sgn neg (pad4 n)

theorem suffix_yearStr (neg : Bool) (n : Nat) : hasSuffix (yearStr neg n) (c! "X") = false := by
  unfold yearStr pad4; rw [hasSuffix_X4, dig_beq_X]

theorem atoi_yearStr (neg : Bool) {n : Nat} (h : n < 10000) :
    atoi (yearStr neg n) = some (if neg then -(n : Int) else n) := by
  cases neg
  · simp only [yearStr, sgn, Bool.false_eq_true, if_false]; exact atoi_pad4 h
  · simp only [yearStr, sgn, if_true]; exact atoi_neg_pad4 h

theorem yearStr_ne_nil (neg : Bool) (n : Nat) : yearStr neg n ≠ [] := by
  cases neg <;> simp [yearStr, sgn]

theorem lang_yearStr (neg : Bool) (n : Nat) : Lang Rx.yearX (yearStr neg n) :=
  lang_yearX.2 ⟨neg, _, _, _, _, rfl, by simp [isDX], by simp [isDX], by simp [isDX], by simp [isDX]⟩

/-- Two-digit texts of numbers are in the month and day patterns. -/
theorem lang_month_table : ∀ m, m < 13 → 1 ≤ m → Rx.monthX.matchString (pad2 m) = true := by decide +kernel

theorem lang_monthX_iff {a b : Char} : Lang Rx.monthX [a, b] ↔
    ((a = '0' ∨ a = 'X') ∧ (('1'.toNat ≤ b.toNat ∧ b.toNat ≤ '9'.toNat) ∨ b = 'X')) ∨
    ((a = '1' ∨ a = 'X') ∧ (('0'.toNat ≤ b.toNat ∧ b.toNat ≤ '2'.toNat) ∨ b = 'X')) := by
  unfold Rx.monthX
  rw [lang_alt, lang_two, lang_two]
  simp only [List.cons.injEq, and_true, clsHas, Bool.false_eq_true, if_false, List.any_cons, List.any_nil, inR_single,
    Bool.or_false, Bool.or_eq_true, beq_iff_eq]
  simp only [inR, Bool.and_eq_true, Nat.ble_eq]
  constructor
  · rintro (⟨a', b', ⟨rfl, rfl⟩, h1, h2⟩ | ⟨a', b', ⟨rfl, rfl⟩, h1, h2⟩)
    · exact Or.inl ⟨h1, h2⟩
    · exact Or.inr ⟨h1, h2⟩
  · rintro (⟨h1, h2⟩ | ⟨h1, h2⟩)
    · exact Or.inl ⟨a, b, ⟨rfl, rfl⟩, h1, h2⟩
    · exact Or.inr ⟨a, b, ⟨rfl, rfl⟩, h1, h2⟩

theorem lang_dayX_iff {a b : Char} : Lang Rx.dayX [a, b] ↔
    ((a = '0' ∨ a = '1' ∨ a = '2' ∨ a = 'X') ∧ isDX b = true) ∨
    ((a = '3' ∨ a = 'X') ∧ (b = '0' ∨ b = '1' ∨ b = 'X')) := by
  unfold Rx.dayX Rx.digX
  rw [lang_alt, lang_two, lang_two]
  simp only [List.cons.injEq, and_true, clsHas_digX]
  simp only [clsHas, Bool.false_eq_true, if_false, List.any_cons, List.any_nil, inR_single,
    Bool.or_false, Bool.or_eq_true, beq_iff_eq]
  constructor
  · rintro (⟨a', b', ⟨rfl, rfl⟩, h1, h2⟩ | ⟨a', b', ⟨rfl, rfl⟩, h1, h2⟩)
    · exact Or.inl ⟨h1, h2⟩
    · exact Or.inr ⟨h1, h2⟩
  · rintro (⟨h1, h2⟩ | ⟨h1, h2⟩)
    · exact Or.inl ⟨a, b, ⟨rfl, rfl⟩, h1, h2⟩
    · exact Or.inr ⟨a, b, ⟨rfl, rfl⟩, h1, h2⟩

theorem monthX_pad2 {m : Nat} (h1 : 1 ≤ m) (h2 : m ≤ 12) : Lang Rx.monthX (pad2 m) := by
  have : ∀ m, m < 13 → 1 ≤ m → ∃ a b, pad2 m = [a, b] ∧
    (((a = '0' ∨ a = 'X') ∧ (('1'.toNat ≤ b.toNat ∧ b.toNat ≤ '9'.toNat) ∨ b = 'X')) ∨
    ((a = '1' ∨ a = 'X') ∧ (('0'.toNat ≤ b.toNat ∧ b.toNat ≤ '2'.toNat) ∨ b = 'X'))) := by
    intro m hm h1
    refine ⟨_, _, rfl, ?_⟩
    revert h1; revert m; decide
  obtain ⟨a, b, e, h⟩ := this m (by omega) h1
  rw [e]; exact lang_monthX_iff.2 h

theorem dayX_pad2 {d : Nat} (h2 : d ≤ 31) : Lang Rx.dayX (pad2 d) := by
  have : ∀ d, d < 32 → ∃ a b, pad2 d = [a, b] ∧
    (((a = '0' ∨ a = '1' ∨ a = '2' ∨ a = 'X') ∧ isDX b = true) ∨
    ((a = '3' ∨ a = 'X') ∧ (b = '0' ∨ b = '1' ∨ b = 'X'))) := by
    intro m hm
    refine ⟨_, _, rfl, ?_⟩
    revert m; decide
  obtain ⟨a, b, e, h⟩ := this d (by omega)
  rw [e]; exact lang_dayX_iff.2 h

/-! ### The span of a level 0 date -/

def Date0.form (x : Date0) (qy qm qd : Deco) : YMDForm :=
  match x.tail with
  | .none => .y ⟨yearStr x.neg x.year, qy⟩
  | .month m => .ym ⟨yearStr x.neg x.year, qy⟩ ⟨pad2 m, qm⟩
  | .day m d => .ymd ⟨yearStr x.neg x.year, qy⟩ ⟨pad2 m, qm⟩ ⟨pad2 d, qd⟩

theorem Date0.form_text (x : Date0) (qy qm qd : Deco) : (Date0.form x qy qm qd).text = x.qtext qy qm qd := by
  obtain ⟨neg, n, t⟩ := x
  cases t <;> simp [Date0.form, YMDForm.text, Date0.qtext, Comp.text, yearStr, sgn]

/-- Month and day patterns do not require the day to exist. -/
def Date0.shapeOk (x : Date0) : Prop :=
  match x.tail with
  | .none => True
  | .month m => 1 ≤ m ∧ m ≤ 12
  | .day m d => 1 ≤ m ∧ m ≤ 12 ∧ 1 ≤ d ∧ d ≤ 31

theorem Date0.form_ok {x : Date0} (h : Date0.shapeOk x) {qy qm qd : Deco} (hq : Date0.qOk x qy qm qd) :
    (Date0.form x qy qm qd).ok := by
  obtain ⟨neg, n, t⟩ := x
  obtain ⟨q1, q2, q3, -⟩ := hq
  cases t with
  | none => exact ⟨q1, lang_yearStr _ _⟩
  | month m => exact ⟨⟨q1, lang_yearStr _ _⟩, q2, monthX_pad2 h.1 h.2⟩
  | day m d => exact ⟨⟨q1, lang_yearStr _ _⟩, ⟨q2, monthX_pad2 h.1 h.2.1⟩, q3, dayX_pad2 h.2.2.2⟩

theorem Date0.ok_shape {x : Date0} (h : x.ok) : Date0.shapeOk x := by
  obtain ⟨neg, n, t⟩ := x
  cases t with
  | none => trivial
  | month m => exact h.2
  | day m d =>
    have := h.2
    have := monthLen_le (Date0.value ⟨neg, n, .day m d⟩) m
    simp only [Date0.shapeOk, Date0.ok, Valid] at *
    omega

theorem Date0.value_lt {x : Date0} (h : x.ok) : x.value.natAbs < 10000 := by
  have := h.1; unfold Date0.value; split <;> omega

theorem Date0.valid_first {x : Date0} (h : x.ok) : Valid x.value x.first.1 x.first.2 := by
  obtain ⟨neg, n, t⟩ := x
  have hp := monthLen_pos
  cases t with
  | none => exact ⟨by simp [Date0.first], by simp [Date0.first], by simp [Date0.first], by simp [Date0.first, monthLen]⟩
  | month m =>
    have := (hp (Date0.value ⟨neg, n, .month m⟩) m).1
    exact ⟨h.2.1, h.2.2, by simp [Date0.first], by simp only [Date0.first]; omega⟩
  | day m d => exact h.2

theorem Date0.valid_last {x : Date0} (h : x.ok) : Valid x.value x.last.1 x.last.2 := by
  obtain ⟨neg, n, t⟩ := x
  have hp := monthLen_pos
  cases t with
  | none => exact ⟨by simp [Date0.last], by simp [Date0.last], by simp [Date0.last], by simp [Date0.last, monthLen]⟩
  | month m =>
    have := (hp (Date0.value ⟨neg, n, .month m⟩) m).1
    exact ⟨h.2.1, h.2.2, by simp only [Date0.last]; omega, by simp [Date0.last]⟩
  | day m d => exact h.2

/-- Is the date a single day? -/
def Date0.isDay (x : Date0) : Bool :=
  match x.tail with
  | .day _ _ => true
  | _ => false

theorem lit01 : (c! "01" : Str) = pad2 1 := by decide
theorem lit12 : (c! "12" : Str) = pad2 12 := by decide

theorem atoi_itoa_nat {n : Nat} (h : n < 2 ^ 62) : atoi (itoa (n : Int)) = some (n : Int) :=
  parseInt_itoa _ (by omega) (by omega)

theorem itoa_ne_nil (n : Int) : itoa n ≠ [] := by
  unfold itoa; split
  · simp
  · exact natDigits_ne_nil _

theorem itoa_two {n : Nat} (h1 : 10 ≤ n) (h2 : n < 100) : itoa (n : Int) = pad2 n := by
  unfold itoa; rw [if_neg (by omega), Int.natAbs_natCast, natDigits_two h1 h2]

/-- What the string range of a level 0 date is. -/
theorem rangeOf_date0 (e : Str) {x : Date0} (h : x.ok) (ua : Prec × Prec) :
    rangeOf e (yearStr x.neg x.year)
      (match x.tail with | .none => [] | .month m => pad2 m | .day m _ => pad2 m)
      (match x.tail with | .day _ d => pad2 d | _ => []) ua =
    .ok ⟨⟨yearStr x.neg x.year, pad2 x.first.1, pad2 x.first.2⟩,
         ⟨yearStr x.neg x.year, pad2 x.last.1, pad2 x.last.2⟩, Prec.YEAR, ua.1, ua.2⟩ := by
  obtain ⟨neg, n, t⟩ := x
  have hv := Date0.value_lt h
  have hd : ∀ m, 1 ≤ m → m ≤ 12 →
      daysInMonthWithString (yearStr neg n ++ c! "-" ++ pad2 m) = .ok (monthLen (if neg then -(n : Int) else n) m : Int) := by
    intro m m1 m2
    exact daysInMonthWithString_eq neg (pad4_all n) (pad2_all m) (atoi_yearStr neg h.1) (atoi_pad2 (by omega)) hv m1 m2
  have hi : ∀ m, itoa (monthLen (if neg then -(n : Int) else n) m : Int) = pad2 (monthLen (if neg then -(n : Int) else n) m) := by
    intro m
    have := monthLen_pos (if neg then -(n : Int) else n) m
    exact itoa_two (by omega) (by omega)
  unfold rangeOf
  rw [yearRange_plain _ (suffix_yearStr _ _)]
  cases t with
  | none =>
    simp only [Res.ok_bind, monthRange_plain suffix_nil, dayRange_plain _ suffix_nil]
    simp only [endDay, if_true, lit12, hd 12 (by omega) (by omega), Res.ok_bind, hi 12]
    simp [Date0.first, Date0.last, lit01, monthLen]
  | month m =>
    simp only [Res.ok_bind, monthRange_plain (suffix_pad2 m), dayRange_plain _ suffix_nil]
    simp only [endDay, if_true, pad2_ne_nil, if_false, hd m h.2.1 h.2.2, Res.ok_bind, hi m]
    simp [Date0.first, Date0.last, lit01, Date0.value]
  | day m d =>
    simp only [Res.ok_bind, monthRange_plain (suffix_pad2 m), dayRange_plain _ (suffix_pad2 d)]
    simp [endDay, pad2_ne_XX, Date0.first, Date0.last]

theorem pad2_inj {a b : Nat} (ha : a < 100) (hb : b < 100) (h : pad2 a = pad2 b) : a = b := by
  rw [← digitsVal_pad2 a ha, ← digitsVal_pad2 b hb, h]

theorem valid_lt {y : Int} {m d : Nat} (h : Valid y m d) : m < 100 ∧ d < 100 := by
  have := monthLen_le y m
  have := h.2.2.2
  have := h.2.1
  omega

theorem stringDate_equals (a b : StringDate) : a.equals b = decide (a = b) := by
  obtain ⟨a1, a2, a3⟩ := a
  obtain ⟨b1, b2, b3⟩ := b
  simp only [StringDate.equals, StringDate.mk.injEq]
  by_cases h1 : a1 = b1 <;> by_cases h2 : a2 = b2 <;> by_cases h3 : a3 = b3 <;> simp [h1, h2, h3]

/-- The span of a (qualified) level 0 date. -/
theorem dateSpan_date0 {x : Date0} (h : x.ok) {qy qm qd : Deco} (hq : Date0.qOk x qy qm qd) :
    dateSpanFromYMD (x.qtext qy qm qd) =
      .ok (spanRec (x.qtext qy qm qd) x.value x.first.1 x.first.2 x.value x.last.1 x.last.2 (Date0.isDay x)
        (marked saysUncertain qy qm qd) (marked saysApproximate qy qm qd) Prec.YEAR) := by
  have hF := Date0.form_ok (Date0.ok_shape h) hq
  have hr := stringRange_form hF
  rw [Date0.form_text] at hr
  have hr2 : stringRangeFromYMD (x.qtext qy qm qd) =
      .ok ⟨⟨yearStr x.neg x.year, pad2 x.first.1, pad2 x.first.2⟩,
         ⟨yearStr x.neg x.year, pad2 x.last.1, pad2 x.last.2⟩, Prec.YEAR,
          marked saysUncertain qy qm qd, marked saysApproximate qy qm qd⟩ := by
    rw [hr, ← rangeOf_date0 (x.qtext qy qm qd) h (marked saysUncertain qy qm qd, marked saysApproximate qy qm qd),
      ← qualFlags_eq hq.1 hq.2.1 hq.2.2.1]
    obtain ⟨neg, n, t⟩ := x
    cases t with
    | none => obtain ⟨-, -, -, rfl, rfl⟩ := hq; rfl
    | month m => obtain ⟨-, -, -, rfl⟩ := hq; rfl
    | day m d => rfl
  have v1 := Date0.valid_first h
  have v2 := Date0.valid_last h
  have hv := Date0.value_lt h
  have ay : atoi (yearStr x.neg x.year) = some x.value := atoi_yearStr x.neg h.1
  have go : ∀ {m d : Nat}, Valid x.value m d →
      ymdFromStrings (yearStr x.neg x.year) (pad2 m) (pad2 d) = .ok ⟨x.value, m, d⟩ := by
    intro m d v
    obtain ⟨l1, l2⟩ := valid_lt v
    rw [ymdFromStrings_eq (yearStr_ne_nil _ _) (pad2_ne_nil _) (pad2_ne_nil _) ay (atoi_pad2 l1) (atoi_pad2 l2) hv v.1 v.2.1,
      if_pos v.2.2.2]
    have := v.2.2.1
    rw [if_neg (show ¬ d = 0 by omega)]
  have key := dateSpan_of_range hr2 (go v1) (go v2) hv hv v1 v2
  rw [key, stringDate_equals]
  congr 2
  obtain ⟨l1, l2⟩ := valid_lt v1
  obtain ⟨l3, l4⟩ := valid_lt v2
  rw [Bool.eq_iff_iff]
  simp only [decide_eq_true_eq, StringDate.mk.injEq, true_and]
  constructor
  · rintro ⟨e1, e2⟩
    have e1 := pad2_inj l3 l1 e1
    have e2 := pad2_inj l4 l2 e2
    obtain ⟨neg, n, t⟩ := x
    cases t with
    | none => simp [Date0.first, Date0.last] at e1
    | month m =>
      simp only [Date0.first, Date0.last] at e2
      have := monthLen_pos (Date0.value ⟨neg, n, .month m⟩) m
      omega
    | day m d => rfl
  · intro e
    obtain ⟨neg, n, t⟩ := x
    cases t with
    | none => simp [Date0.isDay] at e
    | month m => simp [Date0.isDay] at e
    | day m d => exact ⟨rfl, rfl⟩

/-- A day beyond the end of the month is an error. -/
theorem dateSpan_date0_bad {neg : Bool} {n m d : Nat} (hn : n < 10000) (m1 : 1 ≤ m) (m2 : m ≤ 12)
    (hd : monthLen (if neg then -(n : Int) else n) m < d) (hd2 : d ≤ 31) {qy qm qd : Deco}
    (hq : qy.ok = true ∧ qm.ok = true ∧ qd.ok = true) :
    dateSpanFromYMD ((⟨neg, n, .day m d⟩ : Date0).qtext qy qm qd) = .err .plain := by
  have hp := monthLen_pos (if neg then -(n : Int) else n) m
  have hF := Date0.form_ok (x := ⟨neg, n, .day m d⟩) ⟨m1, m2, by omega, hd2⟩ (qy := qy) (qm := qm) (qd := qd)
    ⟨hq.1, hq.2.1, hq.2.2, trivial⟩
  have hr := stringRange_form hF
  rw [Date0.form_text] at hr
  have hr2 : stringRangeFromYMD ((⟨neg, n, .day m d⟩ : Date0).qtext qy qm qd) =
      .ok ⟨⟨yearStr neg n, pad2 m, pad2 d⟩, ⟨yearStr neg n, pad2 m, pad2 d⟩, Prec.YEAR,
          (qualFlags qy.qual qm.qual qd.qual).1, (qualFlags qy.qual qm.qual qd.qual).2⟩ := by
    rw [hr]
    simp only [Date0.form, YMDForm.yx, YMDForm.yc, YMDForm.mx, YMDForm.dx, YMDForm.mq, YMDForm.dq]
    unfold rangeOf
    rw [yearRange_plain _ (suffix_yearStr _ _)]
    simp only [Res.ok_bind, monthRange_plain (suffix_pad2 m), dayRange_plain _ (suffix_pad2 d)]
    simp [endDay, pad2_ne_XX]
  unfold dateSpanFromYMD
  rw [hr2]
  simp only [Res.ok_bind]
  rw [ymdFromStrings_eq (yearStr_ne_nil _ _) (pad2_ne_nil _) (pad2_ne_nil _) (atoi_yearStr neg hn)
    (atoi_pad2 (by omega)) (atoi_pad2 (by omega)) (by cases neg <;> simp <;> omega) m1 m2, if_neg (by omega)]
  rfl

end EDTF
