/- From component texts to spans: common/ymd.go, common/range.go, common/span.go. -/
import Verif.LemmasYMD
namespace EDTF
open Spec

/-! ### Order of days -/

/-- Calendar order. -/
def dayLe (y1 : Int) (m1 d1 : Nat) (y2 : Int) (m2 d2 : Nat) : Prop :=
  y1 < y2 ∨ (y1 = y2 ∧ (m1 < m2 ∨ (m1 = m2 ∧ d1 ≤ d2)))

/-- The day count as a function on naturals. -/
abbrev U : Int → Nat → Nat → Int := fun y m d => unixDay y m d

theorem daysBeforeYear_mono {y z : Int} (h : y ≤ z) : daysBeforeYear y + 365 * (z - y) ≤ daysBeforeYear z := by
  obtain ⟨n, rfl⟩ : ∃ n : Nat, z = y + n := ⟨(z - y).toNat, by omega⟩
  induction n with
  | zero => simp
  | succ n ih =>
    have h1 := ih (by omega)
    have h2 := daysBeforeYear_succ (y + n)
    have h3 := yearLen_le (y + n)
    have e : y + ((n + 1 : Nat) : Int) = y + n + 1 := by omega
    rw [e]; omega

theorem unixDay_le {y1 : Int} {m1 d1 : Nat} {y2 : Int} {m2 d2 : Nat} (h1 : Valid y1 m1 d1) (h2 : Valid y2 m2 d2)
    (h : dayLe y1 m1 d1 y2 m2 d2) : unixDay y1 m1 d1 ≤ unixDay y2 m2 d2 := by
  -- position in the year
  have pos : ∀ {y : Int} {m d : Nat}, Valid y m d → 0 ≤ daysBefore m y + ((d : Int) - 1) ∧
      daysBefore m y + ((d : Int) - 1) < yearLen y := by
    intro y m d h
    obtain ⟨a, b, c, e⟩ := h
    unfold daysBefore yearLen
    rw [isLeap_eq]
    unfold monthLen at e
    rcases month_cases a b with h | h | h | h | h | h | h | h | h | h | h | h <;> subst h <;>
      by_cases hl : Leap y <;> simp [hl] at e ⊢ <;> omega
  have p1 := pos h1
  have p2 := pos h2
  rcases h with h | ⟨rfl, h⟩
  · have a := daysBeforeYear_succ y1
    have b := daysBeforeYear_mono (show y1 + 1 ≤ y2 by omega)
    unfold unixDay; omega
  · rcases h with h | ⟨rfl, h⟩
    · have key : daysBefore m1 y1 + ((d1 : Int) - 1) ≤ daysBefore m2 y1 + ((d2 : Int) - 1) := by
        obtain ⟨a, b, c, e⟩ := h1
        obtain ⟨a', b', c', e'⟩ := h2
        have step : ∀ k : Nat, m1 + 1 + k ≤ 12 → daysBefore ((m1 + 1 : Nat) : Int) y1 ≤ daysBefore ((m1 + 1 + k : Nat) : Int) y1 := by
          intro k
          induction k with
          | zero => intro _; simp
          | succ k ih =>
            intro hk
            have i := ih (by omega)
            have := daysBefore_month y1 (m1 + 1 + k) (by omega) (by omega)
            have hp := monthLen_pos y1 (m1 + 1 + k)
            have e2 := this.2.2.1 (by omega)
            rw [show m1 + 1 + (k + 1) = m1 + 1 + k + 1 by omega]; omega
        have s1 := daysBefore_month y1 m1 (by omega) (by omega)
        have s2 := step (m2 - m1 - 1) (by omega)
        rw [show m1 + 1 + (m2 - m1 - 1) = m2 by omega] at s2
        have e3 := s1.2.2.1 (by omega)
        omega
      unfold unixDay; omega
    · unfold unixDay; omega

/-! ### Dated boundaries -/

theorem dated_eq {y : Int} {m d hh mi ss : Nat} (hy : y.natAbs < 10000) (h : Valid y m d)
    (k1 : hh < 24) (k2 : mi < 60) (k3 : ss < 60) (u a p : Prec) (d0 : Date)
    (hd : d0 = { ymd := some ⟨y, m, d⟩, uncertain := u, approximate := a, precision := p }) :
    Date.setTime d0 (unixDay y m d * 86400 + secOf hh mi ss) = dated U y m d hh mi ss u a p := by
  subst hd
  unfold Date.setTime dated
  rw [formatRFC3339_eq (by omega) h k1 k2 k3]
  have : unixDay y m d * 86400 + secOf hh mi ss = 86400 * U y m d + ((3600 * hh + 60 * mi + ss : Nat) : Int) := by
    unfold secOf; simp only [U]; omega
  rw [this]

theorem mkDate_start {r : StringRange} {y : Int} {m d : Nat} (hy : y.natAbs < 10000) (h : Valid y m d) :
    mkDate r ⟨y, m, d⟩ (unixDay y m d * 86400) = dayStart U y m d r.uncertain r.approximate r.precision := by
  have := dated_eq hy h (hh := 0) (mi := 0) (ss := 0) (by omega) (by omega) (by omega) r.uncertain r.approximate
    r.precision _ rfl
  unfold dayStart; rw [← this]; simp [mkDate, secOf]

theorem mkDate_end {r : StringRange} {y : Int} {m d : Nat} (hy : y.natAbs < 10000) (h : Valid y m d) :
    mkDate r ⟨y, m, d⟩ (unixDay y m d * 86400 + 86399) = dayEnd U y m d r.uncertain r.approximate r.precision := by
  have := dated_eq hy h (hh := 23) (mi := 59) (ss := 59) (by omega) (by omega) (by omega) r.uncertain r.approximate
    r.precision _ rfl
  unfold dayEnd; rw [← this]; simp [mkDate, secOf]

theorem dated_congr {f : Int → Nat → Nat → Int} (hf : DayCount f) {y : Int} {m d : Nat} (h : Valid y m d)
    (hh mi ss : Nat) (u a p : Prec) : dated U y m d hh mi ss u a p = dated f y m d hh mi ss u a p := by
  unfold dated; rw [dayCount_eq hf h]

/-! ### YMDFromStrings -/

theorem ymdFromStrings_eq {ys ms ds : Str} {y : Int} {m d : Nat} (hys : ys ≠ []) (hms : ms ≠ []) (hds : ds ≠ [])
    (ay : atoi ys = some y) (am : atoi ms = some (m : Int)) (ad : atoi ds = some (d : Int))
    (hy : y.natAbs < 10000) (h1 : 1 ≤ m) (h2 : m ≤ 12) :
    ymdFromStrings ys ms ds =
      if d ≤ monthLen y m then .ok ⟨y, m, if d = 0 then monthLen y m else d⟩ else .err .plain := by
  have hfl : flipYear (flipYear y) = y ∧ flipYear y = -y := by
    have h3 := flipYear_eq (y := y) (by omega) (by omega)
    have h4 := flipYear_eq (y := -y) (by omega) (by omega)
    rw [h3, h4]; omega
  have hdm : daysInMonth (if y < 0 then flipYear y else y) m = .ok (monthLen y m : Int) := by
    have e : (if y < 0 then flipYear y else y) = (y.natAbs : Int) := by
      split
      · rw [hfl.2]; omega
      · omega
    rw [e, daysInMonth_nonneg hy h1 h2, monthLen_natAbs]
  have hle : ¬ (if y < 0 then flipYear y else y) > MAX_YEARS := by
    unfold MAX_YEARS
    split
    · rw [hfl.2]; omega
    · omega
  have hback : (if y < 0 then flipYear (if y < 0 then flipYear y else y) else (if y < 0 then flipYear y else y)) = y := by
    split
    · exact hfl.1
    · rfl
  unfold ymdFromStrings atoiOrZero
  simp only [if_neg hys, hms, false_and, if_false, ay, am, ad, Res.ofOption_some, Res.ok_bind, ne_eq, hds,
    not_false_eq_true, if_true, decide_eq_true_eq]
  rw [if_neg hle, if_neg (by omega), if_neg (by omega)]
  simp only [if_neg (show ¬ (m : Int) = 0 by omega), hdm, Res.ok_bind, hback]
  by_cases hd : d ≤ monthLen y m
  · rw [if_neg (by omega), if_pos hd]
    congr 2
    split
    · rw [if_pos (by omega)]
    · rw [if_neg (by omega)]
  · rw [if_pos (by omega), if_neg hd]

/-- ParseInt of digits is not negative. -/
theorem atoi_digits_nonneg {s : Str} {v : Int} (h : s.all isDig = true) (hv : atoi s = some v) : ∃ n : Nat, v = n := by
  by_cases h0 : s = []
  · subst h0; simp [atoi, parseInt] at hv
  · unfold atoi at hv
    rw [parseInt_digits 64 h h0] at hv
    split at hv
    · injection hv with hv; exact ⟨_, hv.symm⟩
    · cases hv

theorem atoi_range {s : Str} {v : Int} (hv : atoi s = some v) : -2 ^ 63 ≤ v ∧ v < 2 ^ 63 := by
  have := parseInt_range hv
  simpa using this

theorem flip_pos {y : Int} (h : -2 ^ 63 ≤ y) (h' : y < 0) : flipYear y = -y ∨ flipYear y = -2 ^ 63 := by
  unfold flipYear wrap64
  rw [Int.bmod_def, Int.bmod_def]
  split <;> split <;> omega

/-- Everything YMDFromStrings accepts (with digit strings for month and day) is
an existing date; and the year is the written one. -/
theorem ymdFromStrings_ok {ys ms ds : Str} {v : YMD} (hm : ms.all isDig = true) (hd : ds.all isDig = true)
    (h : ymdFromStrings ys ms ds = .ok v) :
    ∃ (y : Int) (m d : Nat), v = ⟨y, m, d⟩ ∧ atoi ys = some y ∧ y.natAbs < 10000 ∧ Valid y m d ∧
      (ms ≠ [] → ∃ m0 : Nat, atoi ms = some (m0 : Int) ∧ (m0 = m ∨ (m0 = 0 ∧ m = 1))) ∧
      (ds ≠ [] → ∃ d0 : Nat, atoi ds = some (d0 : Int) ∧ (d0 = d ∨ (d0 = 0 ∧ d = monthLen y m))) := by
  unfold ymdFromStrings at h
  split at h
  · cases h
  rename_i hys
  split at h
  · cases h
  rename_i hmd
  obtain ⟨y, ay, h⟩ := Res.bind_eq_ok.1 h
  have ay := Res.ofOption_eq_ok.1 ay
  obtain ⟨mi, am, h⟩ := Res.bind_eq_ok.1 h
  obtain ⟨di, ad, h⟩ := Res.bind_eq_ok.1 h
  -- month and day are naturals
  have hmn : ∃ m0 : Nat, mi = m0 ∧ (ms ≠ [] → atoi ms = some (m0 : Int)) ∧ (ms = [] → m0 = 0) := by
    by_cases e : ms = []
    · simp only [atoiOrZero, e, ne_eq, not_true_eq_false, if_false, Res.ok.injEq] at am
      exact ⟨0, am.symm, fun k => absurd e k, fun _ => rfl⟩
    · simp only [atoiOrZero, ne_eq, e, not_false_eq_true, if_true] at am
      have am := Res.ofOption_eq_ok.1 am
      obtain ⟨n, rfl⟩ := atoi_digits_nonneg hm am
      exact ⟨n, rfl, fun _ => am, fun k => absurd k e⟩
  have hdn : ∃ d0 : Nat, di = d0 ∧ (ds ≠ [] → atoi ds = some (d0 : Int)) ∧ (ds = [] → d0 = 0) := by
    by_cases e : ds = []
    · simp only [atoiOrZero, e, ne_eq, not_true_eq_false, if_false, Res.ok.injEq] at ad
      exact ⟨0, ad.symm, fun k => absurd e k, fun _ => rfl⟩
    · simp only [atoiOrZero, ne_eq, e, not_false_eq_true, if_true] at ad
      have ad := Res.ofOption_eq_ok.1 ad
      obtain ⟨n, rfl⟩ := atoi_digits_nonneg hd ad
      exact ⟨n, rfl, fun _ => ad, fun k => absurd k e⟩
  obtain ⟨m0, rfl, hm1, hm2⟩ := hmn
  obtain ⟨d0, rfl, hd1, hd2⟩ := hdn
  simp only [decide_eq_true_eq] at h
  by_cases hmax : (if y < 0 then flipYear y else y) > MAX_YEARS
  · rw [if_pos hmax] at h; cases h
  rw [if_neg hmax] at h
  by_cases hz : (m0 : Int) = 0 ∧ (d0 : Int) ≠ 0
  · rw [if_pos hz] at h; cases h
  rw [if_neg hz] at h
  by_cases h12 : (m0 : Int) > 12
  · rw [if_pos h12] at h; cases h
  rw [if_neg h12] at h
  obtain ⟨days, hdays, h⟩ := Res.bind_eq_ok.1 h
  split at h
  · cases h
  rename_i hle
  injection h with h
  subst h
  have ry := atoi_range ay
  have hyy : y.natAbs < 10000 := by
    unfold MAX_YEARS at hmax
    by_cases hn : y < 0
    · rw [if_pos hn] at hmax hdays
      rcases flip_pos ry.1 hn with e | e
      · rw [e] at hmax; omega
      · rw [e] at hdays
        exfalso
        have : padInt 4 (if (-2 ^ 63 : Int) < 0 then wrap64 (-2 ^ 63 - wrap64 (-2 ^ 63 * 2)) else -2 ^ 63)
            = '-' :: '9' :: '2' :: '2' :: c! "3372036854775808" := by decide +kernel
        unfold daysInMonth at hdays
        simp only [this, timeParse, parseToks, layoutDate, parseTok, List.cons_append,
          show isDig '-' = false from rfl, Bool.false_and, Bool.false_eq_true, if_false] at hdays
        cases hdays
    · rw [if_neg hn] at hmax; omega
  have hfl : flipYear y = -y := flipYear_eq (by omega) (by omega)
  have hfl2 : flipYear (-y) = y := by rw [flipYear_eq (by omega) (by omega)]; omega
  have hback : (if y < 0 then flipYear (if y < 0 then flipYear y else y) else (if y < 0 then flipYear y else y)) = y := by
    split
    · rw [hfl, hfl2]
    · rfl
  have habs : (if y < 0 then flipYear y else y) = (y.natAbs : Int) := by
    split
    · rw [hfl]; omega
    · omega
  rw [hback]
  rw [habs] at hdays
  obtain ⟨m, hmm⟩ : ∃ m : Nat, (if (m0 : Int) = 0 then (1 : Int) else m0) = m ∧ 1 ≤ m ∧ m ≤ 12 ∧
      (m0 = m ∨ (m0 = 0 ∧ m = 1)) := by
    by_cases e : m0 = 0
    · exact ⟨1, by simp [e], by omega, by omega, Or.inr ⟨e, rfl⟩⟩
    · exact ⟨m0, by rw [if_neg (by omega)], by omega, by omega, Or.inl rfl⟩
  obtain ⟨em, m1, m2, mc⟩ := hmm
  rw [em] at hdays ⊢
  rw [daysInMonth_nonneg hyy m1 m2, monthLen_natAbs] at hdays
  injection hdays with hdays
  subst hdays
  have hpos := monthLen_pos y m
  refine ⟨y, m, if d0 = 0 then monthLen y m else d0, ?_, ay, hyy, ⟨m1, m2, ?_, ?_⟩, ?_, ?_⟩
  · congr 1
    split
    · rw [if_pos (by omega)]
    · rw [if_neg (by omega)]
  · split <;> omega
  · split <;> omega
  · intro k; exact ⟨m0, hm1 k, mc⟩
  · intro k
    refine ⟨d0, hd1 k, ?_⟩
    split
    · right; omega
    · left; rfl

/-! ### The string range -/

/-- common/range.go:261-470 once the components are known. -/
def rangeOf (edtf_str yyyy mm dd : Str) (ua : Prec × Prec) : Res StringRange := do
  let (start_yyyy, end_yyyy, p) ← yearRange edtf_str yyyy
  let (start_mm, end_mm, p) := monthRange mm p
  let (start_dd, end_dd, p) ← dayRange edtf_str dd p
  let p := if dd = c! "XX" ∧ mm = c! "XX" then Prec.YEAR else if dd = c! "XX" then Prec.MONTH else p
  let start_mm := if start_mm = [] then c! "01" else start_mm
  let start_dd := if start_dd = [] then c! "01" else start_dd
  let end_mm := if end_mm = [] then c! "12" else end_mm
  let end_dd ← endDay end_dd end_yyyy end_mm
  .ok ⟨⟨start_yyyy, start_mm, start_dd⟩, ⟨end_yyyy, end_mm, end_dd⟩, p, ua.1, ua.2⟩

namespace YMDForm
def yx (F : YMDForm) : Str := F.yc.x
def mx : YMDForm → Str
  | .y _ => []
  | .ym _ b => b.x
  | .ymd _ b _ => b.x
def dx : YMDForm → Str
  | .ymd _ _ c => c.x
  | _ => []
def mq : YMDForm → Deco
  | .y _ => .none
  | .ym _ b => b.q
  | .ymd _ b _ => b.q
def dq : YMDForm → Deco
  | .ymd _ _ c => c.q
  | _ => .none
end YMDForm

theorem comp_ne_nil {a : Comp} (h : isComp a.x) : a.text ≠ [] := by
  have := isComp_ne_nil h
  obtain ⟨x, q⟩ := a
  cases q <;> simp_all [Comp.text, Deco.text]

theorem componentIf_comp {a : Comp} (hq : a.q.ok = true) (h : isComp a.x) : componentIf a.text = .ok (a.x, a.q.qual) := by
  unfold componentIf
  rw [if_pos (comp_ne_nil h)]
  exact parseYMDComponent_deco a.q hq h

theorem isComp_y {x : Str} (h : Lang Rx.yearX x) : isComp x := Or.inl h
theorem isComp_m {x : Str} (h : Lang Rx.monthX x) : isComp x := Or.inr (Or.inl h)
theorem isComp_d {x : Str} (h : Lang Rx.dayX x) : isComp x := Or.inr (Or.inr h)

theorem stringRange_form {F : YMDForm} (hF : F.ok) :
    stringRangeFromYMD F.text = rangeOf F.text F.yx F.mx F.dx (qualFlags F.yc.q.qual F.mq.qual F.dq.qual) := by
  obtain ⟨m, e, c1, c2, c3⟩ := ymd_submatch_form hF
  unfold stringRangeFromYMD
  rw [e]
  simp only [c1, c2, c3]
  have nil : componentIf ([] : Str) = .ok ([], none) := by simp [componentIf]
  cases F with
  | y a =>
    simp only [YMDForm.caps, componentIf_comp hF.1 (isComp_y hF.2), nil, Res.ok_bind]
    rfl
  | ym a b =>
    simp only [YMDForm.caps, componentIf_comp hF.1.1 (isComp_y hF.1.2), componentIf_comp hF.2.1 (isComp_m hF.2.2),
      nil, Res.ok_bind]
    rfl
  | ymd a b c =>
    simp only [YMDForm.caps, componentIf_comp hF.1.1 (isComp_y hF.1.2), componentIf_comp hF.2.1.1 (isComp_m hF.2.1.2),
      componentIf_comp hF.2.2.1 (isComp_d hF.2.2.2), Res.ok_bind]
    rfl

theorem stringRange_none {s : Str} (h : ∀ F : YMDForm, F.ok → s ≠ F.text) :
    stringRangeFromYMD s = .err (Invalid (c! "date") s) := by
  unfold stringRangeFromYMD
  rw [ymd_submatch_none h]

/-! ### Qualifier flags -/

theorem deco_cases {q : Deco} (h : q.ok = true) :
    q ∈ [Deco.none, .left '?', .left '~', .left '%', .right '?', .right '~', .right '%'] := by
  cases q with
  | none => simp
  | left c =>
    simp only [Deco.ok, Bool.or_eq_true, beq_iff_eq] at h
    rcases h with (rfl | rfl) | rfl <;> simp
  | right c =>
    simp only [Deco.ok, Bool.or_eq_true, beq_iff_eq] at h
    rcases h with (rfl | rfl) | rfl <;> simp

theorem qualFlags_table : ∀ a ∈ [Deco.none, .left '?', .left '~', .left '%', .right '?', .right '~', .right '%'],
    ∀ b ∈ [Deco.none, .left '?', .left '~', .left '%', .right '?', .right '~', .right '%'],
    ∀ c ∈ [Deco.none, .left '?', .left '~', .left '%', .right '?', .right '~', .right '%'],
    qualFlags a.qual b.qual c.qual = (marked saysUncertain a b c, marked saysApproximate a b c) := by decide +kernel

/-- The flags of common/range.go:137-249 are the ones the qualifiers ask for. -/
theorem qualFlags_eq {a b c : Deco} (ha : a.ok = true) (hb : b.ok = true) (hc : c.ok = true) :
    qualFlags a.qual b.qual c.qual = (marked saysUncertain a b c, marked saysApproximate a b c) :=
  qualFlags_table a (deco_cases ha) b (deco_cases hb) c (deco_cases hc)

theorem YMDForm.deco_ok {F : YMDForm} (hF : F.ok) : F.yc.q.ok = true ∧ F.mq.ok = true ∧ F.dq.ok = true := by
  cases F with
  | y a => exact ⟨hF.1, rfl, rfl⟩
  | ym a b => exact ⟨hF.1.1, hF.2.1, rfl⟩
  | ymd a b c => exact ⟨hF.1.1, hF.2.1.1, hF.2.2.1⟩

/-! ### The span -/

/-- What DateSpanFromYMD builds from two days. -/
def spanRec (edtf : Str) (y1 : Int) (m1 d1 : Nat) (y2 : Int) (m2 d2 : Nat) (same : Bool) (u a p : Prec) : DateSpan :=
  ⟨some ⟨edtf, some (dayStart U y1 m1 d1 u a p),
      some (if same then dayStart U y1 m1 d1 u a p else dayEnd U y1 m1 d1 u a p)⟩,
   some ⟨edtf, some (if same then dayEnd U y2 m2 d2 u a p else dayStart U y2 m2 d2 u a p),
      some (dayEnd U y2 m2 d2 u a p)⟩⟩

theorem dateSpan_of_range {s : Str} {r : StringRange} (hr : stringRangeFromYMD s = .ok r)
    {y1 y2 : Int} {m1 d1 m2 d2 : Nat}
    (h1 : ymdFromStrings r.start.year r.start.month r.start.day = .ok ⟨y1, m1, d1⟩)
    (h2 : ymdFromStrings r.stop.year r.stop.month r.stop.day = .ok ⟨y2, m2, d2⟩)
    (k1 : y1.natAbs < 10000) (k2 : y2.natAbs < 10000) (v1 : Valid y1 m1 d1) (v2 : Valid y2 m2 d2) :
    dateSpanFromYMD s =
      .ok (spanRec s y1 m1 d1 y2 m2 d2 (r.stop.equals r.start) r.uncertain r.approximate r.precision) := by
  unfold dateSpanFromYMD
  simp only [hr, h1, h2, Res.ok_bind, spanTimes, timeWithYMD_lower k1 v1, timeWithYMD_upper k1 v1,
    timeWithYMD_lower k2 v2, timeWithYMD_upper k2 v2]
  cases r.stop.equals r.start
  · simp only [Bool.false_eq_true, if_false, Res.ok_bind, mkDate_start k1 v1, mkDate_end k1 v1, mkDate_start k2 v2,
      mkDate_end k2 v2, spanRec]
  · simp only [if_true, Res.ok_bind, mkDate_start k1 v1, mkDate_end k2 v2, spanRec]

end EDTF
