/- Calendar lemmas. -/
import Verif.Spec
import Verif.Common
namespace EDTF
open Spec

theorem isLeap_iff (y : Int) : isLeap y = true ↔ Leap y := by
  unfold isLeap Leap
  simp only [Bool.and_eq_true, Bool.or_eq_true, beq_iff_eq, bne_iff_ne, ne_eq]
  omega

theorem isLeap_eq (y : Int) : isLeap y = decide (Leap y) := by
  rw [Bool.eq_iff_iff, isLeap_iff]; simp

theorem leap_neg (y : Int) : Leap (-y) ↔ Leap y := by unfold Leap; omega

theorem isLeap_neg (y : Int) : isLeap (-y) = isLeap y := by
  rw [isLeap_eq, isLeap_eq]; simp only [leap_neg]

/-- Case split on the month. -/
theorem month_cases {m : Nat} (h1 : 1 ≤ m) (h2 : m ≤ 12) :
    m = 1 ∨ m = 2 ∨ m = 3 ∨ m = 4 ∨ m = 5 ∨ m = 6 ∨ m = 7 ∨ m = 8 ∨ m = 9 ∨ m = 10 ∨ m = 11 ∨ m = 12 := by
  omega

theorem daysIn_eq (y : Int) (m : Nat) (h1 : 1 ≤ m) (h2 : m ≤ 12) : daysIn m y = monthLen y m := by
  unfold daysIn monthLen
  rw [isLeap_eq]
  rcases month_cases h1 h2 with h | h | h | h | h | h | h | h | h | h | h | h <;> subst h <;> simp
  split <;> rfl

/-- Decomposition of the year into the 400/100/4/1 cycles. -/
theorem year_cycles (y : Int) : ∃ a b c e : Int, y - 1 = 400 * a + 100 * b + 4 * c + e ∧
    0 ≤ b ∧ b ≤ 3 ∧ 0 ≤ c ∧ c ≤ 24 ∧ 0 ≤ e ∧ e ≤ 3 :=
  ⟨(y - 1) / 400, (y - 1) % 400 / 100, (y - 1) % 100 / 4, (y - 1) % 4, by omega⟩

theorem daysBeforeYear_cycles {y a b c e : Int} (h : y - 1 = 400 * a + 100 * b + 4 * c + e)
    (hb : 0 ≤ b ∧ b ≤ 3) (hc : 0 ≤ c ∧ c ≤ 24) (he : 0 ≤ e ∧ e ≤ 3) :
    daysBeforeYear y = 146097 * a + 36524 * b + 1461 * c + 365 * e := by
  unfold daysBeforeYear
  rw [h]
  have h1 : (400 * a + 100 * b + 4 * c + e) / 4 = 100 * a + 25 * b + c := by omega
  have h2 : (400 * a + 100 * b + 4 * c + e) / 100 = 4 * a + b := by omega
  have h3 : (400 * a + 100 * b + 4 * c + e) / 400 = a := by omega
  rw [h1, h2, h3]; omega

/-- `Leap` in terms of the cycles of `y`. -/
theorem leap_cycles {y a b c e : Int} (h : y - 1 = 400 * a + 100 * b + 4 * c + e)
    (hb : 0 ≤ b ∧ b ≤ 3) (hc : 0 ≤ c ∧ c ≤ 24) (he : 0 ≤ e ∧ e ≤ 3) :
    Leap y ↔ e = 3 ∧ (c = 24 → b = 3) := by
  unfold Leap; omega

def yearLen (y : Int) : Int := if Leap y then 366 else 365

theorem yearLen_le (y : Int) : yearLen y ≤ 366 ∧ 365 ≤ yearLen y := by unfold yearLen; split <;> omega

theorem daysBeforeYear_succ (y : Int) : daysBeforeYear (y + 1) = daysBeforeYear y + yearLen y := by
  have h : Leap y ∨ ¬ Leap y := Decidable.em _
  rcases h with h | h
  · rw [yearLen, if_pos h]; unfold Leap at h; unfold daysBeforeYear; omega
  · rw [yearLen, if_neg h]; unfold Leap at h; unfold daysBeforeYear; omega

/-- The cycle computation inverts the day count. -/
theorem yearYday_eq (y yd : Int) (h0 : 0 ≤ yd) (h1 : yd < yearLen y) :
    yearYday (daysBeforeYear y + yd - 719162) = (y, yd) := by
  obtain ⟨a, b, c, e, h, hb0, hb1, hc0, hc1, he0, he1⟩ := year_cycles y
  have hl := leap_cycles h ⟨hb0, hb1⟩ ⟨hc0, hc1⟩ ⟨he0, he1⟩
  have hd := daysBeforeYear_cycles h ⟨hb0, hb1⟩ ⟨hc0, hc1⟩ ⟨he0, he1⟩
  have hy : yd ≤ 365 ∧ (yd = 365 → e = 3 ∧ (c = 24 → b = 3)) := by
    unfold yearLen at h1
    split at h1
    · rename_i hL; exact ⟨by omega, fun _ => hl.1 hL⟩
    · exact ⟨by omega, fun _ => by omega⟩
  unfold yearYday
  have e0 : daysBeforeYear y + yd - 719162 + 719162 = 146097 * a + (36524 * b + 1461 * c + 365 * e + yd) := by omega
  have r0 : 0 ≤ 36524 * b + 1461 * c + 365 * e + yd ∧ 36524 * b + 1461 * c + 365 * e + yd < 146097 := by omega
  have e1 : (146097 * a + (36524 * b + 1461 * c + 365 * e + yd)) / 146097 = a := by omega
  simp only [e0, e1]
  have e2 : 146097 * a + (36524 * b + 1461 * c + 365 * e + yd) - 146097 * a
      = 36524 * b + (1461 * c + 365 * e + yd) := by omega
  simp only [e2]
  have e3 : (36524 * b + (1461 * c + 365 * e + yd)) / 36524 - (36524 * b + (1461 * c + 365 * e + yd)) / 36524 / 4 = b := by
    by_cases hx : 1461 * c + 365 * e + yd = 36524
    · have : b = 3 := by omega
      subst this; rw [hx]; decide
    · have : (36524 * b + (1461 * c + 365 * e + yd)) / 36524 = b := by omega
      rw [this]; omega
  simp only [e3]
  have e4 : 36524 * b + (1461 * c + 365 * e + yd) - 36524 * b = 1461 * c + (365 * e + yd) := by omega
  simp only [e4]
  have e5 : (1461 * c + (365 * e + yd)) / 1461 = c := by omega
  simp only [e5]
  have e6 : 1461 * c + (365 * e + yd) - 1461 * c = 365 * e + yd := by omega
  simp only [e6]
  have e7 : (365 * e + yd) / 365 - (365 * e + yd) / 365 / 4 = e := by
    by_cases hx : yd = 365
    · have : e = 3 := by omega
      subst this; rw [hx]; decide
    · have : (365 * e + yd) / 365 = e := by omega
      rw [this]; omega
  simp only [e7]
  refine Prod.ext ?_ ?_ <;> simp <;> omega

/-- `daysBefore` in the notation of the specification. -/
theorem daysBefore_month (y : Int) (m : Nat) (h1 : 1 ≤ m) (h2 : m ≤ 12) :
    0 ≤ daysBefore m y ∧ daysBefore m y + monthLen y m ≤ yearLen y ∧
    (m < 12 → daysBefore (m + 1 : Nat) y = daysBefore m y + monthLen y m) ∧
    (m = 12 → daysBefore m y + monthLen y m = yearLen y) := by
  unfold daysBefore monthLen yearLen
  rw [isLeap_eq]
  by_cases hL : Leap y <;>
  rcases month_cases h1 h2 with h | h | h | h | h | h | h | h | h | h | h | h <;> subst h <;> simp [hL]

theorem monthDay_eq (y : Int) (m d : Nat) (h : Valid y m d) :
    monthDay y (daysBefore m y + (d - 1)) = ((m : Int), (d : Int)) := by
  obtain ⟨h1, h2, h3, h4⟩ := h
  unfold daysBefore monthDay
  unfold monthLen at h4
  rw [isLeap_eq]
  by_cases hL : Leap y <;>
  rcases month_cases h1 h2 with h | h | h | h | h | h | h | h | h | h | h | h <;> subst h <;>
    simp [hL] at h4 ⊢ <;>
    repeat (first | (intro hh; omega) | (rw [if_neg (by omega)]) | (rw [if_pos (by omega)]; (refine Prod.ext ?_ ?_ <;> simp <;> omega)) | (refine Prod.ext ?_ ?_ <;> simp <;> omega))

/-- The calendar conversion inverts the day count. -/
theorem civil_unixDay (y : Int) (m d : Nat) (h : Valid y m d) :
    civil (unixDay y m d) = (y, (m : Int), (d : Int)) := by
  have hm := monthDay_eq y m d h
  obtain ⟨h1, h2, h3, h4⟩ := h
  obtain ⟨k0, k1, -, -⟩ := daysBefore_month y m h1 h2
  unfold civil unixDay
  have : daysBeforeYear y + daysBefore m y + ((d : Int) - 1) - 719162
      = daysBeforeYear y + (daysBefore m y + (d - 1)) - 719162 := by omega
  rw [this, yearYday_eq y _ (by omega) (by omega)]
  simp only
  rw [hm]

/-- The model's day count satisfies the specification. -/
theorem dayCount_unixDay : DayCount (fun y m d => unixDay y m d) where
  epoch := by decide
  next_day := by intro y m d _ _; unfold unixDay; omega
  next_month := by
    intro y m h1 h2
    obtain ⟨-, -, k, -⟩ := daysBefore_month y m h1 (by omega)
    have := k h2
    unfold unixDay; omega
  next_year := by
    intro y
    obtain ⟨-, -, -, k⟩ := daysBefore_month y 12 (by omega) (by omega)
    have k := k rfl
    have hl : monthLen y 12 = 31 := rfl
    have h1 : daysBefore ((1 : Nat) : Int) (y + 1) = 0 := by simp [daysBefore]
    have := daysBeforeYear_succ y
    unfold unixDay
    rw [h1]
    omega

namespace Spec

theorem monthLen_pos (y : Int) (m : Nat) : 28 ≤ monthLen y m ∧ monthLen y m ≤ 31 := by
  unfold monthLen; split <;> try omega
  split <;> omega

section
variable {f g : Int → Nat → Nat → Int}

theorem DayCount.day_of_month (hf : DayCount f) (y : Int) (m : Nat) (h1 : 1 ≤ m) (h2 : m ≤ 12) (d : Nat) (h3 : 1 ≤ d)
    (h4 : d ≤ monthLen y m) : f y m d = f y m 1 + (d - 1) := by
  induction d with
  | zero => omega
  | succ n ih =>
    by_cases hn : n = 0
    · subst hn; simp
    · rw [hf.next_day y m n ⟨h1, h2, by omega, by omega⟩ (by omega), ih (by omega) (by omega)]
      omega

/-- Days from January 1st to the first of the month. -/
def before (y : Int) : Nat → Nat
  | 0 => 0
  | 1 => 0
  | m + 2 => before y (m + 1) + monthLen y (m + 1)

theorem DayCount.month_of_year (hf : DayCount f) (y : Int) (m : Nat) (h1 : 1 ≤ m) (h2 : m ≤ 12) :
    f y m 1 = f y 1 1 + before y m := by
  induction m with
  | zero => omega
  | succ n ih =>
    by_cases hn : n = 0
    · subst hn; simp [before]
    · obtain ⟨k, rfl⟩ : ∃ k, n = k + 1 := ⟨n - 1, by omega⟩
      have := monthLen_pos y (k + 1)
      rw [hf.next_month y (k + 1) (by omega) (by omega),
        hf.day_of_month y (k + 1) (by omega) (by omega) _ (by omega) (Nat.le_refl _), ih (by omega) (by omega)]
      simp only [before]
      omega

theorem DayCount.year_step (hf : DayCount f) (y : Int) : f (y + 1) 1 1 = f y 1 1 + (before y 12 + 31 : Nat) := by
  rw [hf.next_year, hf.day_of_month y 12 (by omega) (by omega) 31 (by omega) (by simp [monthLen]),
    hf.month_of_year y 12 (by omega) (by omega)]
  omega

/-- The specification determines the number of every existing day. -/
theorem DayCount.unique (hf : DayCount f) (hg : DayCount g) (y : Int) (m d : Nat) (h : Valid y m d) :
    f y m d = g y m d := by
  have step : ∀ n : Nat, f (1970 + n) 1 1 = g (1970 + n) 1 1 ∧ f (1970 - n) 1 1 = g (1970 - n) 1 1 := by
    intro n
    induction n with
    | zero => simpa using hf.epoch.trans hg.epoch.symm
    | succ n ih =>
      constructor
      · have a := hf.year_step (1970 + n)
        have b := hg.year_step (1970 + n)
        have e : (1970 : Int) + (n + 1 : Nat) = 1970 + n + 1 := by omega
        rw [e, a, b, ih.1]
      · have a := hf.year_step (1970 - (n + 1 : Nat))
        have b := hg.year_step (1970 - (n + 1 : Nat))
        have e : (1970 : Int) - (n + 1 : Nat) + 1 = 1970 - n := by omega
        rw [e] at a b
        have := ih.2
        omega
  have hy : f y 1 1 = g y 1 1 := by
    by_cases hc : 1970 ≤ y
    · have := (step (y - 1970).toNat).1
      rwa [show (1970 : Int) + (y - 1970).toNat = y by omega] at this
    · have := (step (1970 - y).toNat).2
      rwa [show (1970 : Int) - (1970 - y).toNat = y by omega] at this
  obtain ⟨h1, h2, h3, h4⟩ := h
  rw [hf.day_of_month y m h1 h2 d h3 h4, hg.day_of_month y m h1 h2 d h3 h4,
    hf.month_of_year y m h1 h2, hg.month_of_year y m h1 h2, hy]

end
end Spec

/-- Every day count is the model's. -/
theorem dayCount_eq {f : Int → Nat → Nat → Int} (hf : DayCount f) {y : Int} {m d : Nat} (h : Valid y m d) :
    f y m d = unixDay y m d := hf.unique dayCount_unixDay y m d h

end EDTF
