/- Every parse result comes from the shared date code; what that says about its boundaries. -/
import Verif.LemmasX
namespace EDTF
open Spec

/-! ### Inversion of the span code -/

/-- The span of a date, unspecified digits included. -/
def DateForm (s : Str) (sp : DateSpan) : Prop :=
  ∃ (F : YMDForm) (y1 y2 : Int) (m1 m2 d1 d2 : Nat) (py : Prec), F.ok ∧ s = F.text ∧
    YearSpan F.yx y1 y2 py ∧ MonthSpan F.mx m1 m2 ∧ DaySpan F.dx (monthLen y1 m1) (monthLen y2 m2) d1 d2 ∧
    Valid y1 m1 d1 ∧ Valid y2 m2 d2 ∧
    sp = spanRec s y1 m1 d1 y2 m2 d2 (sameDay y1 m1 d1 y2 m2 d2)
      (marked saysUncertain F.yc.q F.mq F.dq) (marked saysApproximate F.yc.q F.mq F.dq) (datePrec py F.mx F.dx)

/-- The span of one side of an interval. -/
inductive HalfForm : Str → DateSpan → Prop
  | unknown : HalfForm UNKNOWN ⟨some { unknownDateRange with edtf := UNKNOWN }, some { unknownDateRange with edtf := UNKNOWN }⟩
  | opened : HalfForm OPEN ⟨some { openDateRange with edtf := OPEN }, some { openDateRange with edtf := OPEN }⟩
  | date (s : Str) (sp : DateSpan) : DateForm s sp → HalfForm s sp

theorem halfSpan_inv {s : Str} {sp : DateSpan} (h : halfSpan s = .ok sp) : HalfForm s sp := by
  unfold halfSpan at h
  by_cases h1 : s = UNKNOWN
  · rw [if_pos h1] at h; injection h with h; subst h h1; exact .unknown
  rw [if_neg h1] at h
  by_cases h2 : s = OPEN
  · rw [if_pos h2] at h; injection h with h; subst h h2; exact .opened
  rw [if_neg h2] at h
  exact .date _ _ (dateSpan_inv h)

theorem splitChar_inv1 {c : Char} {s u : Str} (h : splitChar c s = [u]) : s = u ∧ c ∉ s := by
  induction s generalizing u with
  | nil => simp [splitChar] at h; simp [h]
  | cons a s ih =>
    unfold splitChar at h
    by_cases hc : a = c
    · rw [if_pos hc] at h
      injection h with _ h
      exact absurd h (splitChar_ne_nil _ _)
    · rw [if_neg hc] at h
      cases hs : splitChar c s with
      | nil => exact absurd hs (splitChar_ne_nil _ _)
      | cons p ps =>
        rw [hs] at h
        injection h with h1 h2
        subst h2
        obtain ⟨e, n⟩ := ih hs
        subst h1 e
        exact ⟨rfl, by simp [n, Ne.symm hc]⟩

theorem splitChar_inv2 {c : Char} {s u v : Str} (h : splitChar c s = [u, v]) : s = u ++ c :: v ∧ c ∉ u ∧ c ∉ v := by
  induction s generalizing u v with
  | nil => simp [splitChar] at h
  | cons a s ih =>
    unfold splitChar at h
    by_cases hc : a = c
    · rw [if_pos hc] at h
      injection h with h1 h2
      obtain ⟨e, n⟩ := splitChar_inv1 h2
      subst h1 e hc
      exact ⟨rfl, by simp, n⟩
    · rw [if_neg hc] at h
      cases hs : splitChar c s with
      | nil => exact absurd hs (splitChar_ne_nil _ _)
      | cons p ps =>
        rw [hs] at h
        injection h with h1 h2
        subst h2
        obtain ⟨e, n1, n2⟩ := ih hs
        subst h1 e
        exact ⟨rfl, by simp [n1, Ne.symm hc], n2⟩

/-- The result of joining two sides. -/
theorem joinHalves_inv {l r sp : DateSpan} (h : joinHalves l r = .ok sp) :
    ∃ ls le rs re, l = ⟨some ls, some le⟩ ∧ r = ⟨some rs, some re⟩ ∧
      sp = ⟨some { ls with upper := le.upper }, some { re with lower := rs.lower }⟩ := by
  obtain ⟨a, b⟩ := l
  obtain ⟨c, d⟩ := r
  unfold joinHalves at h
  cases a <;> cases b <;> cases c <;> cases d <;> simp [Res.deref] at h
  exact ⟨_, _, _, _, rfl, rfl, h.symm⟩

theorem dateSpanFromEDTF_inv {s : Str} {sp : DateSpan} (h : dateSpanFromEDTF s = .ok sp) :
    ('/' ∉ s ∧ DateForm s sp) ∨
    ∃ u v l r, s = u ++ '/' :: v ∧ '/' ∉ u ∧ '/' ∉ v ∧ HalfForm u l ∧ HalfForm v r ∧ joinHalves l r = .ok sp := by
  unfold dateSpanFromEDTF at h
  split at h
  · rename_i u v hs
    obtain ⟨e, n1, n2⟩ := splitChar_inv2 hs
    obtain ⟨l, hl, h⟩ := Res.bind_eq_ok.1 h
    obtain ⟨r, hr, h⟩ := Res.bind_eq_ok.1 h
    exact .inr ⟨u, v, l, r, e, n1, n2, halfSpan_inv hl, halfSpan_inv hr, h⟩
  · rename_i u hs
    obtain ⟨e, n⟩ := splitChar_inv1 hs
    subst e
    exact .inl ⟨n, dateSpan_inv h⟩
  · cases h

/-! ### Boundaries -/

/-- Both ranges and all four boundaries are present and satisfy `P`. -/
def AllB (P : Date → Prop) (a b : Option DateRange) : Prop :=
  ∃ (ea eb : Str) (al au bl bu : Date), a = some ⟨ea, some al, some au⟩ ∧ b = some ⟨eb, some bl, some bu⟩ ∧ P al ∧ P au ∧ P bl ∧ P bu

/-- A boundary of the shared date code: a second of an existing day with its
calendar date in the supported years, or open, or unknown. -/
def Bd (b : Date) : Prop :=
  (∃ (y : Int) (m d hh mi ss : Nat) (u a p i : Prec), Valid y m d ∧ y.natAbs < 10000 ∧ hh < 24 ∧ mi < 60 ∧ ss < 60 ∧
    b = { dated U y m d hh mi ss u a p with inclusivity := i }) ∨
  (∃ i, b = { openEnd with inclusivity := i }) ∨ (∃ i, b = { unknownEnd with inclusivity := i })

theorem bd_dated {y : Int} {m d hh mi ss : Nat} (u a p : Prec) (h : Valid y m d) (hy : y.natAbs < 10000) (h1 : hh < 24)
    (h2 : mi < 60) (h3 : ss < 60) : Bd (dated U y m d hh mi ss u a p) :=
  .inl ⟨y, m, d, hh, mi, ss, u, a, p, 0, h, hy, h1, h2, h3, rfl⟩

theorem bd_start {y : Int} {m d : Nat} (u a p : Prec) (h : Valid y m d) (hy : y.natAbs < 10000) : Bd (dayStart U y m d u a p) :=
  bd_dated u a p h hy (by omega) (by omega) (by omega)
theorem bd_end {y : Int} {m d : Nat} (u a p : Prec) (h : Valid y m d) (hy : y.natAbs < 10000) : Bd (dayEnd U y m d u a p) :=
  bd_dated u a p h hy (by omega) (by omega) (by omega)
theorem bd_open : Bd { isOpen := true } := .inr (.inl ⟨0, rfl⟩)
theorem bd_unknown : Bd { unknown := true } := .inr (.inr ⟨0, rfl⟩)

theorem bd_inclusivity {b : Date} (h : Bd b) (i : Prec) : Bd { b with inclusivity := i } := by
  rcases h with ⟨y, m, d, hh, mi, ss, u, a, p, j, h0, h1, h2, h3, h4, rfl⟩ | ⟨j, rfl⟩ | ⟨j, rfl⟩
  · exact .inl ⟨y, m, d, hh, mi, ss, u, a, p, i, h0, h1, h2, h3, h4, rfl⟩
  · exact .inr (.inl ⟨i, rfl⟩)
  · exact .inr (.inr ⟨i, rfl⟩)

theorem dateForm_bd {s : Str} {sp : DateSpan} (h : DateForm s sp) : AllB Bd sp.start sp.stop := by
  obtain ⟨F, y1, y2, m1, m2, d1, d2, py, -, -, hY, -, -, V1, V2, rfl⟩ := h
  obtain ⟨k1, k2⟩ := yearSpan_lt hY
  refine ⟨_, _, _, _, _, _, rfl, rfl, bd_start _ _ _ V1 k1, ?_, ?_, bd_end _ _ _ V2 k2⟩
  · split
    · exact bd_start _ _ _ V1 k1
    · exact bd_end _ _ _ V1 k1
  · split
    · exact bd_end _ _ _ V2 k2
    · exact bd_start _ _ _ V2 k2

theorem halfForm_bd {s : Str} {sp : DateSpan} (h : HalfForm s sp) : AllB Bd sp.start sp.stop := by
  cases h with
  | unknown => exact ⟨_, _, _, _, _, _, rfl, rfl, bd_unknown, bd_unknown, bd_unknown, bd_unknown⟩
  | opened => exact ⟨_, _, _, _, _, _, rfl, rfl, bd_open, bd_open, bd_open, bd_open⟩
  | date _ _ h => exact dateForm_bd h

theorem dateSpanFromEDTF_bd {s : Str} {sp : DateSpan} (h : dateSpanFromEDTF s = .ok sp) : AllB Bd sp.start sp.stop := by
  rcases dateSpanFromEDTF_inv h with ⟨-, h⟩ | ⟨u, v, l, r, -, -, -, hl, hr, hj⟩
  · exact dateForm_bd h
  · obtain ⟨ls, le, rs, re, rfl, rfl, rfl⟩ := joinHalves_inv hj
    obtain ⟨_, _, al, au, bl, bu, h1, h2, p1, p2, p3, p4⟩ := halfForm_bd hl
    obtain ⟨_, _, al', au', bl', bu', h1', h2', p1', p2', p3', p4'⟩ := halfForm_bd hr
    injection h1 with h1; injection h2 with h2; injection h1' with h1'; injection h2' with h2'
    subst h1 h2 h1' h2'
    exact ⟨_, _, _, _, _, _, rfl, rfl, p1, p4, p1', p4'⟩

/-! ### Order inside the ranges -/

/-- The lower boundary is not after the upper one, when both have times. -/
def RangeLe (r : Option DateRange) : Prop :=
  ∀ e l u tl tu, r = some ⟨e, some l, some u⟩ → l.timestamp = some tl → u.timestamp = some tu → tl ≤ tu

theorem ts_le {y1 y2 : Int} {m1 d1 m2 d2 : Nat} (V1 : Valid y1 m1 d1) (V2 : Valid y2 m2 d2) (h : dayLe y1 m1 d1 y2 m2 d2) :
    86400 * U y1 m1 d1 + ((3600 * 0 + 60 * 0 + 0 : Nat) : Int) ≤ 86400 * U y2 m2 d2 + ((3600 * 23 + 60 * 59 + 59 : Nat) : Int) := by
  have := unixDay_le V1 V2 h
  simp only [U]; omega

/-- A half is a date, whose first second is not after its last, or has no time. -/
theorem halfForm_le {s : Str} {sp : DateSpan} (h : HalfForm s sp) {e1 e2 : Str} {l u l' u' : Date}
    (h1 : sp.start = some ⟨e1, some l, some u⟩) (h2 : sp.stop = some ⟨e2, some l', some u'⟩) {tl tu : Int}
    (k1 : l.timestamp = some tl) (k2 : u'.timestamp = some tu) : tl ≤ tu := by
  cases h with
  | unknown => injection h1 with h1; injection h1 with _ h1; injection h1 with h1; subst h1; cases k1
  | opened => injection h1 with h1; injection h1 with _ h1; injection h1 with h1; subst h1; cases k1
  | date _ _ h =>
    obtain ⟨F, y1, y2, m1, m2, d1, d2, py, -, -, hY, hM, hD, V1, V2, rfl⟩ := h
    injection h1 with h1; injection h1 with _ h1; injection h1 with h1
    injection h2 with h2; injection h2 with _ _ h2; injection h2 with h2
    subst h1 h2
    injection k1 with k1; injection k2 with k2
    subst k1 k2
    exact ts_le V1 V2 (span_ordered hY hM hD V1)

theorem dayLe_refl (y : Int) (m d : Nat) : dayLe y m d y m d := .inr ⟨rfl, .inr ⟨rfl, Nat.le_refl _⟩⟩

theorem dateForm_le {s : Str} {sp : DateSpan} (h : DateForm s sp) : RangeLe sp.start ∧ RangeLe sp.stop := by
  obtain ⟨F, y1, y2, m1, m2, d1, d2, py, -, -, hY, hM, hD, V1, V2, rfl⟩ := h
  have a := ts_le V1 V1 (dayLe_refl _ _ _)
  have b := ts_le V2 V2 (dayLe_refl _ _ _)
  constructor
  · intro e l u tl tu h1 h2 h3
    injection h1 with h1; injection h1 with _ h1 h1'; injection h1 with h1; injection h1' with h1'
    subst h1 h1'
    injection h2 with h2
    split at h3 <;> (injection h3 with h3; subst h2 h3)
    · exact Int.le_refl _
    · exact a
  · intro e l u tl tu h1 h2 h3
    injection h1 with h1; injection h1 with _ h1 h1'; injection h1 with h1; injection h1' with h1'
    subst h1 h1'
    injection h3 with h3
    split at h2 <;> (injection h2 with h2; subst h2 h3)
    · exact Int.le_refl _
    · exact b

theorem dateSpanFromEDTF_le {s : Str} {sp : DateSpan} (h : dateSpanFromEDTF s = .ok sp) : RangeLe sp.start ∧ RangeLe sp.stop := by
  rcases dateSpanFromEDTF_inv h with ⟨-, h⟩ | ⟨u, v, l, r, -, -, -, hl, hr, hj⟩
  · exact dateForm_le h
  · obtain ⟨ls, le, rs, re, rfl, rfl, rfl⟩ := joinHalves_inv hj
    obtain ⟨_, _, al, au, bl, bu, h1, h2, -⟩ := halfForm_bd hl
    obtain ⟨_, _, al', au', bl', bu', h1', h2', -⟩ := halfForm_bd hr
    have A := fun {tl tu} => halfForm_le hl h1 h2 (tl := tl) (tu := tu)
    have B := fun {tl tu} => halfForm_le hr h1' h2' (tl := tl) (tu := tu)
    injection h1 with h1; injection h2 with h2; injection h1' with h1'; injection h2' with h2'
    subst h1 h2 h1' h2'
    constructor
    · intro e l u tl tu e1 e2 e3
      injection e1 with e1; injection e1 with _ e1 e1'; injection e1 with e1; injection e1' with e1'
      subst e1 e1'
      exact A e2 e3
    · intro e l u tl tu e1 e2 e3
      injection e1 with e1; injection e1 with _ e1 e1'; injection e1 with e1; injection e1' with e1'
      subst e1 e1'
      exact B e2 e3

/-! ### The instants of date-and-time strings -/

/-- What the fields collected by time.Parse satisfy. -/
def FieldsOk (f : Fields) : Prop :=
  0 ≤ f.year ∧ f.year ≤ 9999 ∧ 0 ≤ f.month ∧ f.month ≤ 12 ∧ 0 ≤ f.day ∧ 0 ≤ f.hour ∧ f.hour < 24 ∧ 0 ≤ f.min ∧ f.min < 60 ∧
  0 ≤ f.sec ∧ f.sec < 60 ∧ -90000 ≤ f.offset ∧ f.offset ≤ 90000

theorem getnum_nonneg {b : Bool} {s r : Str} {n : Int} (h : getnum b s = some (n, r)) : 0 ≤ n := by
  unfold getnum at h
  split at h
  · split at h
    · cases h
    · split at h
      · split at h
        · cases h
        · injection h with h; injection h with h; omega
      · injection h with h; injection h with h; omega
  · split at h
    · injection h with h; injection h with h; omega
    · cases h
  · cases h

theorem zoneOffset_range {s a b c d : Char} {o : Int} (h : zoneOffset s a b c d = some o) : -90000 ≤ o ∧ o ≤ 90000 := by
  unfold zoneOffset at h
  split at h
  · rename_i hr _ mm _ h1 h2
    have := getnum_nonneg h1
    have := getnum_nonneg h2
    split at h
    · cases h
    · split at h
      · injection h with h; omega
      · split at h
        · injection h with h; omega
        · cases h
  · cases h

theorem parseTok_ok {t : Tok} {f g : Fields} {s r : Str} (hf : FieldsOk f) (h : parseTok t f s = some (g, r)) : FieldsOk g := by
  obtain ⟨a1, a2, a3, a4, a5, a6, a7, a8, a9, a10, a11, a12, a13⟩ := hf
  cases t with
  | lit c =>
    simp only [parseTok] at h
    split at h
    · split at h
      · injection h with h; injection h with h; subst h; exact ⟨a1, a2, a3, a4, a5, a6, a7, a8, a9, a10, a11, a12, a13⟩
      · cases h
    · cases h
  | year4 =>
    simp only [parseTok] at h
    split at h
    · split at h
      · rename_i a b c d _ hd
        injection h with h; injection h with h; subst h
        have := digitsVal_lt [a, b, c, d] (by simpa [and_assoc] using hd)
        simp only [List.length_cons, List.length_nil] at this
        exact ⟨by simp only; omega, by simp only; omega, a3, a4, a5, a6, a7, a8, a9, a10, a11, a12, a13⟩
      · cases h
    · cases h
  | mon2 =>
    simp only [parseTok] at h
    split at h
    · split at h
      · cases h
      · injection h with h; injection h with h; subst h
        exact ⟨a1, a2, by simp only; omega, by simp only; omega, a5, a6, a7, a8, a9, a10, a11, a12, a13⟩
    · cases h
  | day2 =>
    simp only [parseTok] at h
    split at h
    · rename_i hn
      injection h with h; injection h with h; subst h
      exact ⟨a1, a2, a3, a4, getnum_nonneg hn, a6, a7, a8, a9, a10, a11, a12, a13⟩
    · cases h
  | hour2 =>
    simp only [parseTok] at h
    split at h
    · split at h
      · cases h
      · injection h with h; injection h with h; subst h
        exact ⟨a1, a2, a3, a4, a5, by simp only; omega, by simp only; omega, a8, a9, a10, a11, a12, a13⟩
    · cases h
  | min2 =>
    simp only [parseTok] at h
    split at h
    · split at h
      · cases h
      · injection h with h; injection h with h; subst h
        exact ⟨a1, a2, a3, a4, a5, a6, a7, by simp only; omega, by simp only; omega, a10, a11, a12, a13⟩
    · cases h
  | sec2 =>
    simp only [parseTok] at h
    split at h
    · split at h
      · cases h
      · injection h with h; injection h with h; subst h
        exact ⟨a1, a2, a3, a4, a5, a6, a7, a8, a9, by simp only; omega, by simp only; omega, a12, a13⟩
    · cases h
  | tzColon =>
    simp only [parseTok] at h
    split at h
    · split at h
      · obtain ⟨o, ho, h⟩ := Option.map_eq_some_iff.1 h
        injection h with h; subst h
        have := zoneOffset_range ho
        exact ⟨a1, a2, a3, a4, a5, a6, a7, a8, a9, a10, a11, this.1, this.2⟩
      · cases h
    · cases h
  | tzShort =>
    simp only [parseTok] at h
    split at h
    · obtain ⟨o, ho, h⟩ := Option.map_eq_some_iff.1 h
      injection h with h; subst h
      have := zoneOffset_range ho
      exact ⟨a1, a2, a3, a4, a5, a6, a7, a8, a9, a10, a11, this.1, this.2⟩
    · cases h

theorem parseToks_ok {ts : List Tok} {f g : Fields} {s : Str} (hf : FieldsOk f) (h : parseToks ts f s = some g) : FieldsOk g := by
  induction ts generalizing f s with
  | nil =>
    unfold parseToks at h
    split at h
    · injection h with h; subst h; exact hf
    · cases h
  | cons t ts ih =>
    unfold parseToks at h
    split at h
    · rename_i hp
      exact ih (parseTok_ok hf hp) h
    · cases h

/-- The local reading and the offset behind a successful time.Parse. -/
theorem timeParse_fields {L : List Tok} {s : Str} {t : Int} (h : timeParse L s = some t) :
    ∃ (y m d hh mi ss : Nat) (off : Int), y < 10000 ∧ Valid y m d ∧ hh < 24 ∧ mi < 60 ∧ ss < 60 ∧ -90000 ≤ off ∧ off ≤ 90000 ∧
      t = unixDay y m d * 86400 + secOf hh mi ss - off := by
  unfold timeParse at h
  split at h
  · rename_i f hf
    obtain ⟨a1, a2, a3, a4, a5, a6, a7, a8, a9, a10, a11, a12, a13⟩ :=
      parseToks_ok (by unfold FieldsOk; simp) hf
    split at h
    · cases h
    · rename_i hd
      injection h with h
      obtain ⟨y, hy⟩ := Int.eq_ofNat_of_zero_le a1
      obtain ⟨m, hm⟩ := Int.eq_ofNat_of_zero_le a3
      obtain ⟨d, hdd⟩ := Int.eq_ofNat_of_zero_le a5
      obtain ⟨hh, hhh⟩ := Int.eq_ofNat_of_zero_le a6
      obtain ⟨mi, hmi⟩ := Int.eq_ofNat_of_zero_le a8
      obtain ⟨ss, hss⟩ := Int.eq_ofNat_of_zero_le a10
      rw [hy, hm, hdd, hhh, hmi, hss, goDate_eq] at h
      rw [hm, hy, hdd] at hd
      have hm1 : 1 ≤ m := by
        rcases Nat.eq_zero_or_pos m with rfl | h
        · exfalso; simp [daysIn] at hd; omega
        · exact h
      rw [daysIn_eq _ _ hm1 (by omega)] at hd
      exact ⟨y, m, d, hh, mi, ss, f.offset, by omega, ⟨hm1, by omega, by omega, by omega⟩, by omega, by omega, by omega, a12, a13,
        h.symm⟩
  · cases h

theorem unixDay_lo {y : Nat} {m d : Nat} (h : Valid y m d) : -719528 ≤ unixDay y m d := by
  have v : Valid 0 1 1 := by decide
  have := unixDay_le v h (show dayLe 0 1 1 y m d by
    obtain ⟨a, _, c, _⟩ := h
    unfold dayLe; omega)
  have e : unixDay 0 (1 : Nat) (1 : Nat) = -719528 := by decide
  omega

theorem unixDay_hi {y : Nat} {m d : Nat} (hy : y < 10000) (h : Valid y m d) : unixDay y m d ≤ 2932896 := by
  have v : Valid 9999 12 31 := by decide
  have := unixDay_le h v (show dayLe y m d 9999 12 31 by
    obtain ⟨_, b, _, e⟩ := h
    have := monthLen_le y m
    unfold dayLe; omega)
  have e : unixDay 9999 (12 : Nat) (31 : Nat) = 2932896 := by decide
  omega

/-- The instant lies in the years -1 .. 10000. -/
theorem timeParse_year {L : List Tok} {s : Str} {t : Int} (h : timeParse L s = some t) :
    ∃ (y : Int) (m d : Nat) (r : Int), Valid y m d ∧ 0 ≤ r ∧ r < 86400 ∧ t = unixDay y m d * 86400 + r ∧ -1 ≤ y ∧ y ≤ 10000 := by
  obtain ⟨y0, m0, d0, hh, mi, ss, off, hy, V, k1, k2, k3, o1, o2, rfl⟩ := timeParse_fields h
  obtain ⟨s0, s1⟩ := secOf_range k1 k2 k3
  have lo := unixDay_lo V
  have hi := unixDay_hi hy V
  obtain ⟨y, m, d, r, V', r0, r1, e⟩ := exists_fields (unixDay y0 m0 d0 * 86400 + secOf hh mi ss - off)
  refine ⟨y, m, d, r, V', r0, r1, e, ?_, ?_⟩
  · apply Classical.byContradiction
    intro hc
    have := unixDay_le V' (show Valid (-2) 12 31 by decide) (show dayLe y m d (-2) 12 31 by
      obtain ⟨_, b, _, e⟩ := V'
      have := monthLen_le y m
      unfold dayLe; omega)
    have e2 : unixDay (-2) (12 : Nat) (31 : Nat) = -719894 := by decide
    omega
  · apply Classical.byContradiction
    intro hc
    have := unixDay_le (show Valid 10001 1 1 by decide) V' (show dayLe 10001 1 1 y m d by
      obtain ⟨a, _, c, _⟩ := V'
      unfold dayLe; omega)
    have e2 : unixDay 10001 (1 : Nat) (1 : Nat) = 2933263 := by decide
    omega

theorem exists_hms {r : Int} (h0 : 0 ≤ r) (h1 : r < 86400) : ∃ hh mi ss : Nat, hh < 24 ∧ mi < 60 ∧ ss < 60 ∧ r = secOf hh mi ss := by
  obtain ⟨n, rfl⟩ := Int.eq_ofNat_of_zero_le h0
  refine ⟨n / 3600, n / 60 % 60, n % 60, by omega, by omega, by omega, ?_⟩
  unfold secOf; omega

/-- The boundary of a date-and-time string. -/
theorem instant_bd {s : Str} {L : List Tok} {t0 : Int} (h : timeParse L s = some t0) (b : Bool) :
    ∃ (y : Int) (m d hh mi ss : Nat), Valid y m d ∧ hh < 24 ∧ mi < 60 ∧ ss < 60 ∧ -10000 ≤ y ∧ y ≤ 10000 ∧
      Date.setTime {} (if b then timeToBCE t0 else t0) =
        { dated U y m d hh mi ss 0 0 0 with ymd := none } := by
  obtain ⟨y, m, d, r, V, r0, r1, rfl, y1, y2⟩ := timeParse_year h
  obtain ⟨hh, mi, ss, k1, k2, k3, rfl⟩ := exists_hms r0 r1
  have key : ∀ z : Int, Valid z m d → z.natAbs < 100000 → Date.setTime {} (unixDay z m d * 86400 + secOf hh mi ss) =
      { dated U z m d hh mi ss 0 0 0 with ymd := none } := by
    intro z V hz
    unfold Date.setTime dated
    rw [formatRFC3339_eq hz V k1 k2 k3]
    have : unixDay z m d * 86400 + secOf hh mi ss = 86400 * U z m d + ((3600 * hh + 60 * mi + ss : Nat) : Int) := by
      unfold secOf; simp only [U]; omega
    rw [this]
  cases b with
  | true =>
    refine ⟨-y, m, d, hh, mi, ss, valid_neg.2 V, k1, k2, k3, by omega, by omega, ?_⟩
    rw [if_pos rfl, timeToBCE_eq V r0 r1]
    exact key _ (valid_neg.2 V) (by omega)
  | false =>
    refine ⟨y, m, d, hh, mi, ss, V, k1, k2, k3, by omega, by omega, ?_⟩
    exact key _ V (by omega)

/-! ### Sets -/

theorem openPostFacto_bd {sp sp' : DateSpan} {a b : Bool} (hs : AllB Bd sp.start sp.stop) (h : L2.openPostFacto sp a b = .ok sp') :
    AllB Bd sp'.start sp'.stop := by
  obtain ⟨st, en⟩ := sp
  obtain ⟨e1, e2, al, au, bl, bu, h1, h2, p1, p2, p3, p4⟩ := hs
  simp only at h1 h2
  subst h1 h2
  have po := bd_open
  unfold L2.openPostFacto at h
  cases a <;> cases b <;> simp only [Res.deref_some, Res.ok_bind, Bool.false_eq_true, if_true, if_false] at h <;>
    (injection h with h; subst h)
  · exact ⟨_, _, _, _, _, _, rfl, rfl, p1, p2, p3, p4⟩
  · exact ⟨_, _, _, _, _, _, rfl, rfl, p1, p4, po, po⟩
  · exact ⟨_, _, _, _, _, _, rfl, rfl, po, po, p1, p4⟩
  · exact ⟨_, _, _, _, _, _, rfl, rfl, po, p4, po, p4⟩

theorem setInclusivity_eq {e : Str} {l u : Date} (b : Bool) (p : Prec) :
    L2.setInclusivityIf b (some ⟨e, some l, some u⟩) p =
      .ok (some ⟨e, some { l with inclusivity := if b then p else l.inclusivity },
        some { u with inclusivity := if b then p else u.inclusivity }⟩) := by
  cases b <;> rfl

theorem setSpan_bd {l : List Str} {a b : Bool} {p : Prec} {sp : DateSpan} (h : L2.setSpan l a b p = .ok sp) :
    AllB Bd sp.start sp.stop := by
  unfold L2.setSpan at h
  simp only at h
  obtain ⟨sp0, h0, h⟩ := Res.bind_eq_ok.1 h
  obtain ⟨sp1, h1, h⟩ := Res.bind_eq_ok.1 h
  obtain ⟨st, h2, h⟩ := Res.bind_eq_ok.1 h
  obtain ⟨en, h3, h⟩ := Res.bind_eq_ok.1 h
  injection h with h
  subst h
  have b0 := dateSpanFromEDTF_bd h0
  have b1 : AllB Bd sp1.start sp1.stop := by
    unfold L2.openPostFactoIf at h1
    split at h1
    · exact openPostFacto_bd b0 h1
    · injection h1 with h1; subst h1; exact b0
  obtain ⟨st1, en1⟩ := sp1
  obtain ⟨e1, e2, al, au, bl, bu, q1, q2, p1, p2, p3, p4⟩ := b1
  simp only at q1 q2 h2 h3
  subst q1 q2
  rw [setInclusivity_eq] at h2 h3
  injection h2 with h2
  injection h3 with h3
  subst h2 h3
  exact ⟨_, _, _, _, _, _, rfl, rfl, bd_inclusivity p1 _, bd_inclusivity p2 _, bd_inclusivity p3 _, bd_inclusivity p4 _⟩

/-! ### All results -/

/-- Where a result comes from. -/
inductive Origin (s : Str) : EDTFDate → Prop
  | special (d : EDTFDate) : (d = mkEDTF openDateSpan s (-1) (c! "Open") ∨ d = mkEDTF unknownDateSpan s (-1) (c! "Unknown")) → Origin s d
  | instant (L : List Tok) (t0 : Int) (b : Bool) : timeParse L s = some t0 → Origin s
      ⟨some { lower := some (Date.setTime {} (if b then timeToBCE t0 else t0)), upper := some (Date.setTime {} (if b then timeToBCE t0 else t0)) },
       some { lower := some (Date.setTime {} (if b then timeToBCE t0 else t0)), upper := some (Date.setTime {} (if b then timeToBCE t0 else t0)) },
       s, 0, L0.DATE_AND_TIME⟩
  | span (t : Str) (sp : DateSpan) (l : Int) (f : Str) : dateSpanFromEDTF t = .ok sp → f ≠ L2.SET_REPRESENTATIONS → Origin s (mkEDTF sp s l f)
  | set (mem : L2.SetMembers) (p : Prec) (sp : DateSpan) : L2.isSetRepresentation s = true →
      L2.setSpan (sortStrings mem.possible) mem.start_open mem.end_open p = .ok sp → Origin s (mkEDTF sp s 2 L2.SET_REPRESENTATIONS)

theorem origin0 {s : Str} {d : EDTFDate} (h : L0.parseString s = .ok d) : Origin s d := by
  unfold L0.parseString at h
  by_cases h1 : L0.isDate s = true
  · rw [if_pos h1] at h
    obtain ⟨-, sp, hs, rfl⟩ := guard_inv h
    exact .span _ _ _ _ hs (by decide)
  rw [if_neg h1] at h
  by_cases h2 : L0.isDateAndTime s = true
  · rw [if_pos h2] at h
    obtain ⟨t, rfl, m, t0, -, ht, rfl⟩ := parseDateAndTime_inv h
    exact .instant _ _ _ ht
  rw [if_neg h2] at h
  by_cases h3 : L0.isTimeInterval s = true
  · rw [if_pos h3] at h
    obtain ⟨-, sp, hs, rfl⟩ := guard_inv h
    exact .span _ _ _ _ hs (by decide)
  rw [if_neg h3] at h; cases h

theorem origin1 {s : Str} {d : EDTFDate} (h : L1.parseString s = .ok d) : Origin s d := by
  unfold L1.parseString at h
  by_cases h1 : L1.isLetterPrefixedCalendarYear s = true
  · rw [if_pos h1] at h
    obtain ⟨m, sp, -, hs, rfl⟩ := parseLetter_inv h
    exact .span _ _ _ _ hs (by decide)
  rw [if_neg h1] at h
  by_cases h2 : L1.isSeason s = true
  · rw [if_pos h2] at h
    obtain ⟨m, w, dm, sp, -, -, -, hs, rfl⟩ := parseSeason_inv h
    exact .span _ _ _ _ hs (by decide)
  rw [if_neg h2] at h
  by_cases h3 : L1.isQualifiedDate s = true
  · rw [if_pos h3] at h
    obtain ⟨-, sp, hs, rfl⟩ := guard_inv h
    exact .span _ _ _ _ hs (by decide)
  rw [if_neg h3] at h
  by_cases h4 : L1.isUnspecifiedDigits s = true
  · rw [if_pos h4] at h
    obtain ⟨-, sp, hs, rfl⟩ := guard_inv h
    exact .span _ _ _ _ hs (by decide)
  rw [if_neg h4] at h
  by_cases h5 : L1.isNegativeCalendarYear s = true
  · rw [if_pos h5] at h
    obtain ⟨-, sp, hs, rfl⟩ := guard_inv h
    exact .span _ _ _ _ hs (by decide)
  rw [if_neg h5, if_pos (isExtendedInterval_true s)] at h
  rcases parseExtended_inv h with ⟨-, sp, hs, rfl⟩ | ⟨-, -, sp, hs, rfl⟩
  · exact .span _ _ _ _ hs (by decide)
  · exact .span _ _ _ _ hs (by decide)

theorem origin2 {s : Str} {d : EDTFDate} (h : L2.parseString s = .ok d) : Origin s d := by
  unfold L2.parseString at h
  by_cases h1 : L2.isExponentialYear s = true
  · rw [if_pos h1] at h
    obtain ⟨m, y, sp, -, -, hs, rfl⟩ := parseExponential_inv h
    exact .span _ _ _ _ hs (by decide)
  rw [if_neg h1] at h
  by_cases h2 : L2.isSignificantDigits s = true
  · rw [if_pos h2] at h
    obtain ⟨m, y, n, str, sp, -, -, -, -, -, hs, rfl⟩ := parseSigDigits_inv h
    exact .span _ _ _ _ hs (by decide)
  rw [if_neg h2] at h
  by_cases h3 : L2.isSubYearGrouping s = true
  · rw [if_pos h3] at h
    obtain ⟨m, g, ey, sp, -, -, -, hs, rfl⟩ := parseSubYear_inv h
    exact .span _ _ _ _ hs (by decide)
  rw [if_neg h3] at h
  by_cases h4 : L2.isSetRepresentation s = true
  · rw [if_pos h4] at h
    obtain ⟨m, p, mem, sp, -, -, -, -, hs, rfl⟩ := parseSet_inv h
    exact .set mem p sp h4 hs
  rw [if_neg h4] at h
  by_cases h5 : L2.isGroupQualification s = true
  · rw [if_pos h5] at h
    obtain ⟨-, sp, hs, rfl⟩ := guard_inv h
    exact .span _ _ _ _ hs (by decide)
  rw [if_neg h5] at h
  by_cases h6 : L2.isIndividualQualification s = true
  · rw [if_pos h6] at h
    obtain ⟨-, sp, hs, rfl⟩ := guard_inv h
    exact .span _ _ _ _ hs (by decide)
  rw [if_neg h6] at h
  by_cases h7 : L2.isUnspecifiedDigit s = true
  · rw [if_pos h7] at h
    obtain ⟨-, sp, hs, rfl⟩ := guard_inv h
    exact .span _ _ _ _ hs (by decide)
  rw [if_neg h7] at h
  by_cases h8 : L2.isInterval s = true
  · rw [if_pos h8] at h
    obtain ⟨-, sp, hs, rfl⟩ := guard_inv h
    exact .span _ _ _ _ hs (by decide)
  rw [if_neg h8] at h; cases h

theorem parse_origin {s : Str} {d : EDTFDate} (h : parseString s = .ok d) : Origin s d := by
  unfold parseString at h
  by_cases h1 : L0.isLevel0 s = true
  · rw [if_pos h1] at h; exact origin0 h
  rw [if_neg h1] at h
  by_cases h2 : L1.isLevel1 s = true
  · rw [if_pos h2] at h; exact origin1 h
  rw [if_neg h2] at h
  by_cases h3 : L2.isLevel2 s = true
  · rw [if_pos h3] at h; exact origin2 h
  rw [if_neg h3] at h
  by_cases h4 : s = OPEN
  · rw [if_pos h4] at h; injection h with h; exact .special _ (.inl h.symm)
  rw [if_neg h4] at h
  by_cases h5 : s = UNKNOWN
  · rw [if_pos h5] at h; injection h with h; exact .special _ (.inr h.symm)
  rw [if_neg h5] at h; cases h

end EDTF
