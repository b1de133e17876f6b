/- For C87: unspecified digits. -/
import Verif.LemmasStandard2
import Verif.LemmasDen
namespace EDTF
open Spec
variable {f : Int → Nat → Nat → Int}

/-! ### Bounds -/

theorem xbounds_unique {x : XDate} {t1 t2 t3 t4 : Int} (h : x.Bounds f t1 t2) (k : x.Bounds f t3 t4) : t1 = t3 ∧ t2 = t4 := by
  obtain ⟨⟨y1, m1, d1, r1, rfl⟩, ⟨y2, m2, d2, r2, rfl⟩, h⟩ := h
  obtain ⟨⟨y3, m3, d3, r3, rfl⟩, ⟨y4, m4, d4, r4, rfl⟩, k⟩ := k
  have a := h _ _ _ r3
  have b := h _ _ _ r4
  have c := k _ _ _ r1
  have d := k _ _ _ r2
  omega

/-- A date that can be read and has a reading, with a month other than "0X": its days are the earliest and the latest reading. -/
theorem runs_bounds (hf : DayCount f) {x : XDate} (h : x.ok) (hr : ∃ y m d, x.Reads y m d) {y1 y2 : Int} {m1 d1 m2 d2 : Nat}
    (R : x.Runs y1 m1 d1 y2 m2 d2) (hm : x.mx ≠ c! "0X") : x.Bounds f (86400 * f y1 m1 d1) (86400 * f y2 m2 d2 + 86399) := by
  obtain ⟨hY, hM, hD, V1, V2⟩ := R
  obtain ⟨p, hY⟩ := (yearReads_iff h.1).1 hY
  have hM := monthReads_iff.1 hM
  have hD := dayReads_iff.1 hD
  have h0 : x.dx ≠ c! "00" := by
    obtain ⟨y, m, d, hr⟩ := hr
    exact fun e => reads_00 e hr
  obtain ⟨r1, r2⟩ := span_tight h hm h0 hY hM hD V1 V2
  refine ⟨⟨_, _, _, r1, rfl⟩, ⟨_, _, _, r2, rfl⟩, fun y m d hr => ?_⟩
  obtain ⟨b1, b2⟩ := span_between h hm hY hM hD hr
  have := day_order hf V1 hr.1 b1
  have := day_order hf hr.1 V2 b2
  omega

theorem month_0X {m1 m2 : Nat} (h : MonthReads (c! "0X") m1 m2) : m1 = 10 ∧ m2 = 12 := monthSpan_0X (monthReads_iff.1 h)

/-- With the month "0X" they are not readings. -/
theorem runs_wrong (hf : DayCount f) {x : XDate} {y1 y2 : Int} {m1 d1 m2 d2 : Nat} (R : x.Runs y1 m1 d1 y2 m2 d2) (hm : x.mx = c! "0X") (t : Int) :
    ¬ x.Bounds f (86400 * f y1 m1 d1) t ∧ ¬ x.Bounds f t (86400 * f y2 m2 d2 + 86399) := by
  obtain ⟨-, hM, -, V1, V2⟩ := R
  rw [hm] at hM
  obtain ⟨rfl, rfl⟩ := month_0X hM
  constructor
  · rintro ⟨⟨y, m, d, hr, e⟩, -⟩
    have := reads_0X hm hr
    have := day_unique hf V1 hr.1 (by omega)
    omega
  · rintro ⟨-, ⟨y, m, d, hr, e⟩, -⟩
    have := reads_0X hm hr
    have := day_unique hf V2 hr.1 (by omega)
    omega

/-! ### The dates that are understood -/

theorem pad4_last (n : Nat) : (pad4 n).getLast? = some (dig (n % 10)) := rfl

theorem not_leap_nine (k : Nat) : ¬ Leap ((10 * k + 9 : Nat) : Int) := by
  unfold Leap
  omega

theorem leap_of_29 {y : Int} (h : Valid y 2 29) : Leap y := by
  have := h.2.2.2
  unfold monthLen at this
  simp only at this
  by_cases k : Leap y
  · exact k
  · rw [if_neg k] at this; omega

theorem monthReads_02 {m1 m2 : Nat} (h : MonthReads (c! "02") m1 m2) : m1 = 2 ∧ m2 = 2 := by
  generalize hs : c! "02" = s at h
  cases h with
  | digits _ h1 h2 =>
    have := pad2_inj (a := 2) (by omega) (by omega) hs
    omega
  | _ => cases hs

theorem dayReads_29 {l1 l2 d1 d2 : Nat} {w : Str} (hw : w = c! "29" ∨ w = c! "2X") (h : DayReads l1 l2 w d1 d2) :
    d2 = 29 ∧ (w = c! "29" → d1 = 29) := by
  cases h with
  | digits _ h1 h2 =>
    rcases hw with hw | hw
    · have := pad2_inj (b := 29) (by omega) (by omega) hw
      exact ⟨this, fun _ => this⟩
    · exact absurd (show 'X' ∈ pad2 _ by rw [hw]; simp) (pad2_noX _)
  | tens2 => exact ⟨rfl, nofun⟩
  | absent => rcases hw with hw | hw <;> cases hw
  | zero => rcases hw with hw | hw <;> cases hw
  | any => rcases hw with hw | hw <;> cases hw
  | tens1 => rcases hw with hw | hw <;> cases hw
  | tens3 => rcases hw with hw | hw <;> cases hw

theorem understood_of {x : XDate} (hn : x.neg = false) {y1 y2 : Int} {m1 d1 m2 d2 : Nat} (R : x.Runs y1 m1 d1 y2 m2 d2) (hm : x.mx ≠ c! "0X") :
    x.Understood := by
  obtain ⟨hY, hM, hD, V1, V2⟩ := R
  rw [hn] at hY
  refine ⟨?_, ?_, ?_, ?_⟩
  · intro hX
    generalize hw : x.year = w at hY hX
    cases hY with
    | digits n h => exact absurd hX (pad4_noX _)
    | unspecified a h hb hc =>
      refine ⟨?_, rfl⟩
      have : ∀ a, a < 10 → dig a ≠ 'X' := by decide
      intro k
      injection k with k
      exact this a h k
  · intro hX
    generalize hw : x.mx = w at hM hX hm
    cases hM with
    | absent => cases hX
    | digits m h1 h2 => exact absurd hX (pad2_noX _)
    | any => exact Or.inl rfl
    | zero => exact absurd rfl hm
    | one => exact Or.inr rfl
  · intro hX
    generalize hw : x.dx = w at hD hX
    cases hD with
    | absent => cases hX
    | digits m h1 h2 => exact absurd hX (pad2_noX _)
    | zero => revert hX; decide
    | any => exact Or.inl rfl
    | tens1 => exact Or.inr (Or.inl rfl)
    | tens2 => exact Or.inr (Or.inr (Or.inl rfl))
    | tens3 => exact Or.inr (Or.inr (Or.inr rfl))
  · intro h2 h29
    rw [h2] at hM
    obtain ⟨rfl, rfl⟩ := monthReads_02 hM
    obtain ⟨rfl, -⟩ := dayReads_29 h29 hD
    have hl := leap_of_29 V2
    generalize hw : x.year = w at hY
    cases hY with
    | digits _ n h =>
      refine ⟨pad4_noX _, fun k hk e => ?_⟩
      rw [pad4_inj h hk e] at hl
      exact hl
    | @unspecified a h b c b1 b2 c1 c2 hb hc =>
      have := not_leap_nine (100 * a + 10 * b2 + c2)
      rw [show 10 * (100 * a + 10 * b2 + c2) + 9 = 1000 * a + 100 * b2 + 10 * c2 + 9 by omega] at this
      exact absurd hl this

theorem place_of {c : Char} (h : XDigit c) : ∃ a b, Place c a b := by
  rcases h with rfl | ⟨k, hk, rfl⟩
  · exact ⟨_, _, .any⟩
  · exact ⟨_, _, .digit k hk⟩

/-- The year that is understood, given a reading. -/
theorem year_of {x : XDate} (h : x.ok) (hn : x.neg = false) {n : Nat} (hk : n < 10000) (hfit : Fits x.year (pad4 n))
    (hu : 'X' ∈ x.year → x.year.head? ≠ some 'X' ∧ x.year.getLast? = some 'X') :
    ∃ y1 y2 : Int, YearReads x.neg x.year y1 y2 ∧ ('X' ∉ x.year → y1 = n ∧ y2 = n) := by
  rw [hn]
  by_cases hX : 'X' ∈ x.year
  · obtain ⟨h1, h2⟩ := hu hX
    obtain ⟨hl, hd, -⟩ := h
    generalize x.year = w at *
    match w, hl with
    | [a, b, c, e], _ =>
      have ha : a ≠ 'X' := fun k => h1 (by rw [k]; rfl)
      have h2 : e = 'X' := by simpa using h2
      subst h2
      obtain ⟨k, hk', rfl⟩ : ∃ k, k < 10 ∧ a = dig k := by
        rcases hd a (by simp) with h | h
        · exact absurd h ha
        · exact h
      obtain ⟨b1, b2, hb⟩ := place_of (hd b (by simp))
      obtain ⟨c1, c2, hc⟩ := place_of (hd c (by simp))
      exact ⟨_, _, .unspecified k hk' hb hc, fun k => absurd hX k⟩
  · have := (fits_eq hX).1 hfit
    refine ⟨_, _, by rw [this]; exact .digits false n hk, fun _ => ⟨rfl, rfl⟩⟩

theorem readable_of {x : XDate} (h : x.ok) (hn : x.neg = false) (hr : ∃ y m d, x.Reads y m d) (hu : x.Understood) :
    x.mx ≠ c! "0X" ∧ x.Readable := by
  obtain ⟨u1, u2, u3, u4⟩ := hu
  refine ⟨fun e => ?_, ?_⟩
  · have := u2 (by rw [e]; simp)
    rw [e] at this
    rcases this with k | k <;> cases k
  obtain ⟨y, m, d, V, ⟨n, hk, ey, hfit⟩, hrest⟩ := hr
  rw [hn] at ey
  simp only [Bool.false_eq_true, if_false] at ey
  obtain ⟨y1, y2, hY, hy⟩ := year_of h hn hk hfit u1
  -- the month
  have month : ∃ m1 m2, MonthReads x.mx m1 m2 ∧ ((m1 = m ∧ m2 = m ∧ x.mx = pad2 m) ∨ ((m1 = 1 ∨ m1 = 10) ∧ m2 = 12)) := by
    by_cases hX : 'X' ∈ x.mx
    · rcases u2 hX with e | e
      · exact ⟨1, 12, by rw [e]; exact .any, Or.inr ⟨Or.inl rfl, rfl⟩⟩
      · exact ⟨10, 12, by rw [e]; exact .one, Or.inr ⟨Or.inr rfl, rfl⟩⟩
    · unfold XDate.mx at hX ⊢
      cases ht : x.tail with
      | none => exact ⟨1, 12, .absent, Or.inr ⟨Or.inl rfl, rfl⟩⟩
      | month w =>
        rw [ht] at hrest hX
        simp only at hrest hX
        have e := (fits_eq hX).1 hrest
        simp only
        rw [e]
        exact ⟨m, m, .digits m V.1 V.2.1, Or.inl ⟨rfl, rfl, rfl⟩⟩
      | day w v =>
        rw [ht] at hrest hX
        simp only at hrest hX
        have e := (fits_eq hX).1 hrest.1
        simp only
        rw [e]
        exact ⟨m, m, .digits m V.1 V.2.1, Or.inl ⟨rfl, rfl, rfl⟩⟩
  obtain ⟨m1, m2, hM, hm⟩ := month
  have c1 : 1 ≤ m1 ∧ m1 ≤ 12 := by have := V.1; have := V.2.1; omega
  have c2 : 1 ≤ m2 ∧ m2 ≤ 12 := by have := V.1; have := V.2.1; omega
  have L1 := monthLen_pos y1 m1
  have L2 := monthLen_pos y2 m2
  have L := monthLen_pos y m
  have len31 : ∀ z : Int, monthLen z 1 = 31 ∧ monthLen z 10 = 31 ∧ monthLen z 12 = 31 := fun z => ⟨rfl, rfl, rfl⟩
  -- months other than February do not depend on the year
  have other : m ≠ 2 → ∀ z z' : Int, monthLen z m = monthLen z' m := by
    intro hm z z'
    unfold monthLen
    split <;> first | rfl | exact absurd rfl hm
  -- a day that exists in every year in question
  have days : ∀ k, 1 ≤ k → k ≤ 31 → ((m1 = m ∧ m2 = m) → k ≤ monthLen y m) → ((m1 = 2 ∨ m2 = 2) → 29 ≤ k → 'X' ∉ x.year) →
      k ≤ monthLen y1 m1 ∧ k ≤ monthLen y2 m2 := by
    intro k k1 k2 k3 k4
    rcases hm with ⟨e1, e2, -⟩ | ⟨e1, e2⟩
    · subst e1 e2
      have k3 := k3 ⟨rfl, rfl⟩
      by_cases h2 : m2 = 2
      · subst h2
        by_cases h29 : 29 ≤ k
        · obtain ⟨e1, e2⟩ := hy (k4 (Or.inl rfl) h29)
          rw [e1, e2, ← ey]; exact ⟨k3, k3⟩
        · have := monthLen_pos y1 2
          have := monthLen_pos y2 2
          omega
      · rw [other h2 y1 y, other h2 y2 y]; exact ⟨k3, k3⟩
    · subst e2
      have := len31 y1; have := len31 y2
      rcases e1 with rfl | rfl <;> omega
  have fin : ∀ d1 d2, DayReads (monthLen y1 m1) (monthLen y2 m2) x.dx d1 d2 → 1 ≤ d1 → d1 ≤ monthLen y1 m1 → 1 ≤ d2 → d2 ≤ monthLen y2 m2 → x.Readable :=
    fun d1 d2 hD a1 a2 a3 a4 => ⟨y1, y2, m1, m2, d1, d2, hY, hM, hD, ⟨c1.1, c1.2, a1, a2⟩, ⟨c2.1, c2.2, a3, a4⟩⟩
  have feb : (m1 = 2 ∨ m2 = 2) → x.mx = c! "02" ∧ m = 2 := by
    rcases hm with ⟨e1, e2, e3⟩ | ⟨e1, e2⟩
    · intro k
      have : m = 2 := by omega
      rw [e3, this]; exact ⟨rfl, rfl⟩
    · omega
  by_cases hX : 'X' ∈ x.dx
  · -- the reading of the day
    have hfd : Fits x.dx (pad2 d) := by
      unfold XDate.dx at hX ⊢
      cases ht : x.tail with
      | none => rw [ht] at hX; cases hX
      | month w => rw [ht] at hX; cases hX
      | day w v => rw [ht] at hrest; exact hrest.2
    rcases u3 hX with e | e | e | e
    · exact fin 1 (monthLen y2 m2) (by rw [e]; exact .any) (by omega) (by omega) (by omega) (by omega)
    · exact fin 10 19 (by rw [e]; exact .tens1) (by omega) (by omega) (by omega) (by omega)
    · have := days 29 (by omega) (by omega) (by
        intro k
        by_cases h2 : m = 2
        · have hl := (u4 (feb (Or.inl (by omega))).1 (Or.inr e))
          have ey' := (fits_eq hl.1).1 hfit
          have := hl.2 n hk ey'
          rw [h2, ey]
          unfold monthLen; simp only [this, if_true]; omega
        · have := monthLen_30 y h2; omega)
        (fun k _ => (u4 (feb k).1 (Or.inr e)).1)
      exact fin 20 29 (by rw [e]; exact .tens2) (by omega) (by omega) (by omega) (by omega)
    · have hd30 : 30 ≤ d := by
        rw [e] at hfd
        unfold pad2 at hfd
        have h1 : '3' = dig (d / 10 % 10) := by
          rcases hfd.1 with h | h
          · cases h
          · exact h
        have : ∀ k, k < 10 → '3' = dig k → k = 3 := by decide
        have := this _ (by omega) h1
        omega
      have h2 : m ≠ 2 := by
        intro k
        have := V.2.2.2
        rw [k] at this
        have := monthLen_29 y
        omega
      have := days 30 (by omega) (by omega) (fun _ => monthLen_30 y h2) (fun k _ => absurd (feb k).2 h2)
      exact fin 30 (monthLen y2 m2) (by rw [e]; exact .tens3) (by omega) (by omega) (by omega) (by omega)
  · unfold XDate.dx at hX fin
    cases ht : x.tail with
    | none =>
      rw [ht] at fin
      exact fin 1 (monthLen y2 m2) .absent (by omega) (by omega) (by omega) (by omega)
    | month w =>
      rw [ht] at fin
      exact fin 1 (monthLen y2 m2) .absent (by omega) (by omega) (by omega) (by omega)
    | day w v =>
      rw [ht] at hrest hX fin
      simp only at hrest hX fin
      have e := (fits_eq hX).1 hrest.2
      have hd := V.2.2
      have := days d hd.1 (by omega) (fun _ => hd.2) (by
        intro k k29
        obtain ⟨e1, e2⟩ := feb k
        have : monthLen y 2 ≤ 29 := monthLen_29 y
        have : d = 29 := by rw [e2] at hd; omega
        refine (u4 e1 (Or.inl ?_)).1
        unfold XDate.dx
        rw [ht]
        simp only
        rw [e, this]; rfl)
      rw [e] at fin
      exact fin d d (.digits d hd.1 (by omega)) hd.1 this.1 hd.1 this.2

/-- Being understood, in terms of what the code does. -/
theorem understood_iff {x : XDate} (h : x.ok) (hn : x.neg = false) (hr : ∃ y m d, x.Reads y m d) :
    x.Understood ↔ x.mx ≠ c! "0X" ∧ x.Readable := by
  constructor
  · exact readable_of h hn hr
  · rintro ⟨hm, y1, y2, m1, m2, d1, d2, R⟩
    exact understood_of hn R hm

end EDTF
