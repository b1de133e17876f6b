/-
C13, C20, C21, C25, C32 once more: exactly when each of them holds.
-/
import Verif.PropsX
import Verif.PropsWf
import Verif.PropsText
namespace EDTF
open Spec

variable {f : Int → Nat → Nat → Int}

/-! ### Valid strings -/

/-- C13, exactly: a valid string is understood (parsed, or refused as a feature
that is not supported) unless it is listed in `Fails` with an error of another
kind, or in `Panics`. -/
theorem C13_exact_partial {s : Str} (h : isValid s = true) :
    ((∃ d, parseString s = .ok d) ∨ ∃ e, parseString s = .err e ∧ (isUnsupported e = true ∨ isNotImplemented e = true)) ↔
    ¬ (Panics s ∨ Fails s .plain ∨ ∃ l t, Fails s (.invalid l t)) := by
  have hu : ∀ l t, parseString s ≠ .err (.unrecognized l t) := by
    intro l t he
    have := (C14_unrecognized s).1 ⟨_, he, rfl⟩
    rw [h] at this
    cases this
  rw [← C63_panic]
  simp only [← C62_error]
  cases hp : parseString s with
  | ok d => simp
  | panic => simp
  | err e =>
    rcases C77_labels hp with rfl | ⟨l', -, k⟩
    · simp [isUnsupported, isNotImplemented]
    · cases e with
      | notSet => cases k
      | wrapped e => cases k
      | plain => cases k
      | unrecognized l t => exact absurd hp (hu l t)
      | notImplemented l t => simp [isNotImplemented]
      | unsupported l t => simp [isUnsupported]
      | invalid l t => simp [isUnsupported, isNotImplemented]

/-- Valid strings that are not understood: one of each kind. -/
example : (isValid (c! "201x") = true ∧ Fails (c! "201x") (.invalid (c! "Extended Interval") (c! "201x"))) ∧
    (isValid (c! "2021-02-30") = true ∧ Fails (c! "2021-02-30") .plain) ∧ (isValid (c! "1950S5") = true ∧ Panics (c! "1950S5")) :=
  ⟨⟨by decide +kernel, (C62_error _ _).1 rfl⟩, ⟨by decide +kernel, (C62_error _ _).1 rfl⟩, ⟨by decide +kernel, (C63_panic _).1 (by decide +kernel)⟩⟩

/-! ### Days -/

/-- The numbers of two days are equal only if the days are. -/
theorem day_unique (hf : DayCount f) {y1 y2 : Int} {m1 d1 m2 d2 : Nat} (V1 : Valid y1 m1 d1) (V2 : Valid y2 m2 d2)
    (h : f y1 m1 d1 = f y2 m2 d2) : y1 = y2 ∧ m1 = m2 ∧ d1 = d2 := by
  have := C31_determined hf V1 V2 (hh := 0) (mi := 0) (ss := 0) (hh' := 0) (mi' := 0) (ss' := 0)
    (by decide) (by decide) (by decide) (by decide) (by decide) (by decide) (by omega)
  exact ⟨this.1, this.2.1, this.2.2.1⟩

theorem day_lt (hf : DayCount f) {y1 y2 : Int} {m1 d1 m2 d2 : Nat} (V1 : Valid y1 m1 d1) (V2 : Valid y2 m2 d2)
    (h : y1 < y2 ∨ (y1 = y2 ∧ m1 < m2)) : f y1 m1 d1 < f y2 m2 d2 := by
  have h1 := day_order hf V1 V2 (by unfold dayLe; omega)
  by_cases e : f y1 m1 d1 = f y2 m2 d2
  · obtain ⟨e1, e2, e3⟩ := day_unique hf V1 V2 e
    omega
  · omega

/-! ### Dates with unspecified digits -/

theorem monthSpan_0X {m1 m2 : Nat} (h : MonthSpan ['0', 'X'] m1 m2) : m1 = 10 ∧ m2 = 12 := by
  generalize hs : (['0', 'X'] : Str) = s at h
  cases h with
  | plain => exact absurd (show 'X' ∈ pad2 _ by rw [← hs]; simp) (pad2_noX _)
  | dx => exact ⟨rfl, rfl⟩
  | _ => cases hs

theorem fits_0X {m : Nat} (h : Fits ['0', 'X'] (pad2 m)) (hm : m < 100) : m < 10 := by
  have h1 : '0' = dig (m / 10 % 10) := by
    unfold pad2 at h
    rcases h.1 with h | h
    · cases h
    · exact h
  have : ∀ k, k < 10 → '0' = dig k → k = 0 := by decide
  have := this _ (by omega) h1
  omega

theorem fits_00 {d : Nat} (h : Fits ['0', '0'] (pad2 d)) (hd : d < 100) : d = 0 :=
  (pad2_inj (by decide) hd ((fits_eq (by decide)).1 (show Fits (pad2 0) (pad2 d) from h))).symm

/-- There is no reading of a date with day "00". -/
theorem reads_00 {x : XDate} (hd : x.dx = ['0', '0']) {y : Int} {m d : Nat} (hr : x.Reads y m d) : False := by
  obtain ⟨V, -, h⟩ := hr
  unfold XDate.dx at hd
  cases ht : x.tail with
  | none => rw [ht] at hd; cases hd
  | month w => rw [ht] at hd; cases hd
  | day w v =>
    rw [ht] at hd h
    simp only at hd h
    subst hd
    have hl := monthLen_pos y m
    have := fits_00 h.2 (by have := V.2.2.2; omega)
    have := V.2.2.1
    omega

/-- The months read from "0X" are 1 to 9. -/
theorem reads_0X {x : XDate} (hm : x.mx = ['0', 'X']) {y : Int} {m d : Nat} (hr : x.Reads y m d) : m < 10 := by
  obtain ⟨V, -, h⟩ := hr
  unfold XDate.mx at hm
  cases ht : x.tail with
  | none => rw [ht] at hm; cases hm
  | month w =>
    rw [ht] at hm h
    simp only at hm h
    subst hm
    exact fits_0X h (by have := V.2.1; omega)
  | day w v =>
    rw [ht] at hm h
    simp only at hm h
    subst hm
    exact fits_0X h.1 (by have := V.2.1; omega)

/-- The first and last day of the span of a date that the season parser does not read. -/
theorem xspan {x : XDate} (h : x.ok) {sp : DateSpan} {l : Int} {ft : Str} (hd : dateSpanFromYMD x.text = .ok sp) :
    ∃ (y1 y2 : Int) (m1 m2 d1 d2 : Nat) (py : Prec), YearSpan (sgn x.neg x.year) y1 y2 py ∧ MonthSpan x.mx m1 m2 ∧
      DaySpan x.dx (monthLen y1 m1) (monthLen y2 m2) d1 d2 ∧ Valid y1 m1 d1 ∧ Valid y2 m2 d2 ∧
      (mkEDTF sp x.text l ft).lower = .ok (86400 * unixDay y1 m1 d1) ∧ (mkEDTF sp x.text l ft).upper = .ok (86400 * unixDay y2 m2 d2 + 86399) := by
  obtain ⟨F, y1, y2, m1, m2, d1, d2, py, hF, e, hY, hM, hD, V1, V2, rfl⟩ := dateSpan_inv hd
  obtain ⟨f1, f2, f3, -⟩ := xform h hF e
  rw [f1] at hY
  rw [f2] at hM
  rw [f3] at hD
  refine ⟨y1, y2, m1, m2, d1, d2, py, hY, hM, hD, V1, V2, ?_, ?_⟩
  · simp [EDTFDate.lower, mkEDTF, spanRec, dayStart, dated]
  · simp [EDTFDate.upper, mkEDTF, spanRec, dayEnd, dated]

theorem not_head_dash {s : Str} : ¬ Lang (Rx.unspecifiedDigits 1) ('-' :: s) ∧ ¬ Lang (Rx.unspecifiedDigit 1) ('-' :: s) := by
  have key : ∀ u v : Str, '-' :: s = u ++ v → ¬ Lang (.grp 1 (Re.rep Rx.digX 4)) u := by
    intro u v e hu
    obtain ⟨a, b, c, d, rfl, ha, -⟩ := (lang_rep4 (fun w => lang_digX (w := w))).1 (lang_grp.1 hu)
    injection e with e _
    subst e
    exact absurd ha (by decide)
  constructor
  · intro h
    obtain ⟨u, v, e, hu, -⟩ := lang_cat.1 h
    exact key u v e hu
  · intro h
    obtain ⟨u, v, e, hu, -⟩ := lang_cat.1 h
    exact key u v e hu

/-- A date with unspecified digits that parses has no sign. -/
theorem xneg {x : XDate} (h : x.ok) (hX : 'X' ∈ x.text) {r : EDTFDate} (hp : parseString x.text = .ok r) : x.neg = false := by
  cases hn : x.neg with
  | false => rfl
  | true =>
    exfalso
    have e : ∃ t, x.text = '-' :: t := by unfold XDate.text; rw [hn]; exact ⟨_, rfl⟩
    have nm : ∀ c, isDX c = false → c ≠ '-' → c ∉ x.text := fun c a b => xchars h a b
    have lo : x.text.all plainC = true := by
      rw [List.all_eq_true]
      intro c hc
      cases hp' : plainC c with
      | true => rfl
      | false =>
        exfalso
        refine nm c ?_ (by rintro rfl; cases hp') hc
        cases hd : isDX c with
        | false => rfl
        | true =>
          have := xdigit_mem (xdigit_iff.2 hd)
          have key : ∀ c ∈ (c! "X0123456789"), plainC c = true := by decide
          rw [key c this] at hp'
          cases hp'
    obtain ⟨t, e⟩ := e
    rcases xparse h hX hp with ⟨-, hl, -⟩ | ⟨sp, l, ft, -, -, ⟨-, -, hq⟩ | ⟨-, -, hq⟩⟩
    · rw [isLevel1_iff] at hl
      rcases hl with hl | hl | hl | hl | hl | hl | hl | hl
      · exact not_lang_of_must ['Y'] (by decide) (by simpa using nm 'Y' (by decide) (by decide)) hl
      · exact not_lang_of_char (c := 'X') (by decide) hX hl
      · exact not_lang_of_char (c := 'X') (by decide) hX hl
      · exact not_lang_of_char (c := 'X') (by decide) hX hl
      · rw [lang_ci_noLower (r := Rx.unspecifiedDigits 1) (by decide) _ lo, e] at hl
        exact not_head_dash.1 hl
      · exact not_lang_of_must ['/'] (by decide) (by simpa using nm '/' (by decide) (by decide)) hl
      · exact not_lang_of_must ['/'] (by decide) (by simpa using nm '/' (by decide) (by decide)) hl
      · exact not_lang_of_char (c := 'X') (by decide) hX hl
    · rw [isUnspecifiedDigits_iff, e] at hq
      exact not_head_dash.1 hq
    · rw [isUnspecifiedDigit_iff, e] at hq
      exact not_head_dash.2 hq

/-- C20, exactly: all readings of a date with unspecified digits that parses lie
inside the span, unless the month is written "0X" and the day is not "00" (with
day "00" there is no reading). -/
theorem C20_exact_partial (hf : DayCount f) {x : XDate} (h : x.ok) (hX : 'X' ∈ x.text) {r : EDTFDate} (hp : parseString x.text = .ok r) :
    (∀ (y : Int) (m d : Nat), x.Reads y m d →
      ∃ lo hi, r.lower = .ok lo ∧ r.upper = .ok hi ∧ lo ≤ 86400 * f y m d ∧ 86400 * f y m d + 86399 ≤ hi) ↔
    (x.mx = c! "0X" → x.dx = c! "00") := by
  constructor
  · intro hall hm
    by_cases hd0 : x.dx = c! "00"
    · exact hd0
    exfalso
    rcases xparse h hX hp with ⟨hs, -, -⟩ | ⟨sp, l, ft, hd, rfl, -⟩
    · obtain ⟨n, m, d, -, -, e⟩ := xseason h hX hs
      rw [e] at hm
      exact absurd (show 'X' ∈ pad2 m by rw [show pad2 m = ['0', 'X'] from hm]; simp) (pad2_noX _)
    · obtain ⟨y1, y2, m1, m2, d1, d2, py, hY, hM, hD, V1, V2, e1, e2⟩ := xspan (l := l) (ft := ft) h hd
      rw [hm] at hM
      obtain ⟨rfl, rfl⟩ := monthSpan_0X hM
      obtain ⟨-, hy1, -⟩ := yearSpan_reads h.1 (xall h.2.1) hY
      have hr : x.Reads y1 1 d1 := by
        refine ⟨⟨by decide, by decide, V1.2.2.1, ?_⟩, hy1, ?_⟩
        · have := V1.2.2.2
          exact this
        · unfold XDate.mx at hm
          unfold XDate.dx at hD hd0
          have hok := h.2.2
          cases ht : x.tail with
          | none => rw [ht] at hm; cases hm
          | month w =>
            rw [ht] at hm
            simp only at hm ⊢
            subst hm
            unfold pad2; simp [Fits, dig]
          | day w v =>
            rw [ht] at hm hD hd0 hok
            simp only at hm hD hd0 hok ⊢
            subst hm
            refine ⟨by unfold pad2; simp [Fits, dig], ?_⟩
            exact ((daySpan_reads hD (by intro h0; rw [h0] at hok; exact absurd hok.2.2.1 (by decide)) (monthLen_pos _ _).2 (monthLen_pos _ _).2).2
              hd0 (by have := monthLen_pos y1 10; omega) (by have := monthLen_pos y2 12; omega) (fun _ => monthLen_30 _ (by decide))).1
      obtain ⟨lo, hi, g1, -, g2, -⟩ := hall _ _ _ hr
      rw [e1] at g1
      injection g1 with g1
      rw [← g1, ← dayCount_eq hf V1] at g2
      have := day_lt hf hr.1 V1 (.inr ⟨rfl, by decide⟩)
      omega
  · intro hc y m d hr
    by_cases hm : x.mx = c! "0X"
    · exact (reads_00 (hc hm) hr).elim
    · exact C20_inside_partial hf h hX hm hp hr

/-- The theorem at work: 1984-0X leaves out a reading, 1984-1X does not, and 1984-0X-00 has none. -/
example : (⟨false, c! "1984", .month (c! "0X")⟩ : XDate).ok ∧ 'X' ∈ (⟨false, c! "1984", .month (c! "0X")⟩ : XDate).text ∧
    (∃ r, parseString (⟨false, c! "1984", .month (c! "0X")⟩ : XDate).text = .ok r) ∧
    (∃ r, parseString (⟨false, c! "1984", .month (c! "1X")⟩ : XDate).text = .ok r) ∧
    ∃ r, parseString (⟨false, c! "1984", .day (c! "0X") (c! "00")⟩ : XDate).text = .ok r :=
  ⟨⟨rfl, fun c hc => xdigit_iff.2 (by revert c; decide), rfl, fun c hc => xdigit_iff.2 (by revert c; decide)⟩, by decide, ⟨_, rfl⟩, ⟨_, rfl⟩, _, rfl⟩

/-- Year and month in digits, and the first and the last day of the month are readings. -/
def XDate.FillsMonth (x : XDate) : Prop :=
  ∃ n m, x.year = pad4 n ∧ x.mx = pad2 m ∧ x.Reads n m 1 ∧ x.Reads n m (monthLen n m)

/-- C21, exactly: the span of a date with unspecified digits that parses starts
with the first second of a reading and ends with the last second of one, unless
the month is written "0X", or the day "00", or year and month are in digits and
the first or the last day of the month is not a reading. -/
theorem C21_exact_partial (hf : DayCount f) {x : XDate} (h : x.ok) (hX : 'X' ∈ x.text) {r : EDTFDate} (hp : parseString x.text = .ok r) :
    ((∃ y m d, x.Reads y m d ∧ r.lower = .ok (86400 * f y m d)) ∧ (∃ y m d, x.Reads y m d ∧ r.upper = .ok (86400 * f y m d + 86399))) ↔
    (x.mx ≠ c! "0X" ∧ x.dx ≠ c! "00" ∧ ('X' ∈ x.year ∨ 'X' ∈ x.mx ∨ XDate.FillsMonth x)) := by
  have hneg := xneg h hX hp
  constructor
  · rintro ⟨⟨y, m, d, hr, hlo⟩, ⟨y', m', d', hr', hup⟩⟩
    have hdx : x.dx ≠ c! "00" := fun e => reads_00 e hr
    refine ⟨fun hm => ?_, hdx, ?_⟩
    · rcases xparse h hX hp with ⟨hs, -, -⟩ | ⟨sp, l, ft, hd, rfl, -⟩
      · obtain ⟨n, m, d, -, -, e⟩ := xseason h hX hs
        rw [e] at hm
        exact absurd (show 'X' ∈ pad2 m by rw [show pad2 m = ['0', 'X'] from hm]; simp) (pad2_noX _)
      · obtain ⟨y1, y2, m1, m2, d1, d2, py, hY, hM, hD, V1, V2, e1, e2⟩ := xspan (l := l) (ft := ft) h hd
        rw [hm] at hM
        obtain ⟨rfl, rfl⟩ := monthSpan_0X hM
        rw [e1, ← dayCount_eq hf V1] at hlo
        injection hlo with hlo
        have := day_unique hf V1 hr.1 (by omega)
        have := reads_0X hm hr
        omega
    · by_cases hy : 'X' ∈ x.year
      · exact .inl hy
      by_cases hmx : 'X' ∈ x.mx
      · exact .inr (.inl hmx)
      refine .inr (.inr ?_)
      obtain ⟨V, ⟨n, hn, ey, fy⟩, hrest⟩ := id hr
      rw [hneg] at ey
      simp only [Bool.false_eq_true, if_false] at ey
      have ey4 := (fits_eq hy).1 fy
      obtain ⟨xn, xy, xt⟩ := x
      simp only at hneg ey4 hrest
      subst hneg ey4
      cases xt with
      | none =>
        exfalso
        have : 'X' ∈ pad4 n ++ [] := by rw [xtext] at hX; exact hX
        rw [List.append_nil] at this
        exact hy this
      | month w =>
        exfalso
        rw [xtext] at hX
        rcases List.mem_append.1 (show 'X' ∈ pad4 n ++ '-' :: w from hX) with hh | hh
        · exact hy hh
        · rcases List.mem_cons.1 hh with hh | hh
          · cases hh
          · exact hmx hh
      | day w v =>
        have hw : w = pad2 m := (fits_eq hmx).1 hrest.1
        subst hw
        have hXv : 'X' ∈ v := by
          rw [xtext] at hX
          rcases List.mem_append.1 (show 'X' ∈ pad4 n ++ '-' :: (pad2 m ++ '-' :: v) from hX) with hh | hh
          · exact absurd hh hy
          · rcases List.mem_cons.1 hh with hh | hh
            · cases hh
            · rcases List.mem_append.1 hh with hh | hh
              · exact absurd hh hmx
              · rcases List.mem_cons.1 hh with hh | hh
                · cases hh
                · exact hh
        have := (C21_month_partial hf h hXv hn V.1 V.2.1 hp).1 ⟨⟨y, m, d, hr, hlo⟩, ⟨y', m', d', hr', hup⟩⟩
        exact ⟨n, m, rfl, rfl, ⟨valid_first V.1 V.2.1, ⟨n, hn, rfl, (fits_eq hy).2 rfl⟩, (fits_eq hmx).2 rfl, this.1⟩,
          ⟨valid_last V.1 V.2.1, ⟨n, hn, rfl, (fits_eq hy).2 rfl⟩, (fits_eq hmx).2 rfl, this.2⟩⟩
  · rintro ⟨hm, hd0, hc⟩
    by_cases hw : 'X' ∈ x.year ∨ 'X' ∈ x.mx
    · exact C21_tight_partial hf h hX hm hd0 hw hp
    · rcases hc with hc | hc | ⟨n, m, ey, em, h1, h2⟩
      · exact absurd (.inl hc) hw
      · exact absurd (.inr hc) hw
      · obtain ⟨xn, xy, xt⟩ := x
        simp only at hneg ey
        subst hneg ey
        have hn : n < 10000 := by
          obtain ⟨-, ⟨n', hn', e', fy⟩, -⟩ := h1
          simp only [Bool.false_eq_true, if_false] at e'
          omega
        have hy : 'X' ∉ pad4 n := pad4_noX _
        have hmm : 'X' ∉ pad2 m := pad2_noX _
        cases xt with
        | none => cases em
        | month w =>
          exfalso
          rw [xtext] at hX
          rcases List.mem_append.1 (show 'X' ∈ pad4 n ++ '-' :: w from hX) with hh | hh
          · exact hy hh
          · rcases List.mem_cons.1 hh with hh | hh
            · cases hh
            · rw [show w = pad2 m from em] at hh; exact hmm hh
        | day w v =>
          have hw' : w = pad2 m := em
          subst hw'
          have hXv : 'X' ∈ v := by
            rw [xtext] at hX
            rcases List.mem_append.1 (show 'X' ∈ pad4 n ++ '-' :: (pad2 m ++ '-' :: v) from hX) with hh | hh
            · exact absurd hh hy
            · rcases List.mem_cons.1 hh with hh | hh
              · cases hh
              · rcases List.mem_append.1 hh with hh | hh
                · exact absurd hh hmm
                · rcases List.mem_cons.1 hh with hh | hh
                  · cases hh
                  · exact hh
          exact (C21_month_partial hf h hXv hn h1.1.1 h1.1.2.1 hp).2 ⟨h1.2.2.2, h2.2.2.2⟩

/-- 1985-12-XX fills its month, 1985-12-1X does not. -/
example : XDate.FillsMonth ⟨false, c! "1985", .day (c! "12") (c! "XX")⟩ ∧ ¬ XDate.FillsMonth ⟨false, c! "1985", .day (c! "12") (c! "1X")⟩ := by
  refine ⟨⟨1985, 12, by decide, by decide, ⟨by decide, ⟨1985, by decide, rfl, by simp [Fits, pad4, dig]⟩, by simp [Fits, pad2, dig]⟩,
    ⟨by decide, ⟨1985, by decide, rfl, by simp [Fits, pad4, dig]⟩, by simp [Fits, pad2, dig]⟩⟩, ?_⟩
  rintro ⟨n, m, -, -, ⟨-, -, -, h⟩, -⟩
  revert h
  simp [Fits, pad2, dig]

/-! ### Sets -/

theorem monthLen_neg (y : Int) (m : Nat) : monthLen (-y) m = monthLen y m := by
  unfold monthLen
  split <;> simp only [leap_neg]

/-- The same date with the other sign. -/
def Date0.pos (x : Date0) : Date0 := ⟨false, x.year, x.tail⟩

theorem pos_value (x : Date0) (h : x.neg = true) : x.value = -(Date0.pos x).value := by
  unfold Date0.value Date0.pos; rw [h]; rfl

theorem pos_ok {x : Date0} (h : x.ok) (hn : x.neg = true) : (Date0.pos x).ok := by
  have e := pos_value x hn
  obtain ⟨n, y, t⟩ := x
  refine ⟨h.1, ?_⟩
  have h2 := h.2
  cases t with
  | none => trivial
  | month m => exact h2
  | day m d =>
    have h2 : Valid (⟨n, y, .day m d⟩ : Date0).value m d := h2
    rw [e] at h2
    obtain ⟨a, b, c, k⟩ := h2
    exact ⟨a, b, c, by rw [monthLen_neg] at k; exact k⟩

theorem pos_first (x : Date0) : (Date0.pos x).first = x.first := rfl

theorem pos_last {x : Date0} (hn : x.neg = true) : (Date0.pos x).last = x.last := by
  have e := pos_value x hn
  obtain ⟨n, y, t⟩ := x
  cases t with
  | none => rfl
  | day m d => rfl
  | month m =>
    show (m, monthLen _ m) = (m, monthLen (⟨n, y, .month m⟩ : Date0).value m)
    rw [e, monthLen_neg]

theorem neg_text {x : Date0} (hn : x.neg = true) : x.text = '-' :: (Date0.pos x).text := by
  obtain ⟨n, y, t⟩ := x
  simp only at hn
  subst hn
  rw [date0_text, date0_text]
  rfl

theorem pos_head {x : Date0} (hn : x.neg = false) : ∃ k t, x.text = dig k :: t ∧ k < 10 := by
  obtain ⟨n, y, t⟩ := x
  simp only at hn
  subst hn
  rw [date0_text]
  exact ⟨y / 1000 % 10, _, rfl, by omega⟩

/-- A negative year is written before one without a sign. -/
theorem neg_before {a b : Date0} (ha : a.neg = false) (hb : b.neg = true) : strLe a.text b.text = false := by
  obtain ⟨k, t, e, hk⟩ := pos_head ha
  rw [e, neg_text hb]
  have := dig_toNat k hk
  rw [show strLe (dig k :: t) ('-' :: (Date0.pos b).text) = if (dig k).toNat < ('-').toNat then true
    else if ('-').toNat < (dig k).toNat then false else strLe t _ from rfl, this, if_neg (by show ¬ 48 + k < 45; omega), if_pos]
  show 45 < 48 + k
  omega

/-- Two negative years: the one nearer to zero comes first. -/
theorem neg_order {a b : Date0} (ha : a.ok) (hb : b.ok) (na : a.neg = true) (nb : b.neg = true) (h : strLe a.text b.text = true) :
    a.year < b.year ∨ (a.year = b.year ∧
      dayLe a.value a.first.1 a.first.2 b.value b.first.1 b.first.2 ∧ dayLe a.value a.first.1 a.first.2 b.value b.last.1 b.last.2) := by
  rw [neg_text na, neg_text nb, strLe_dash] at h
  have hy : a.year < b.year ∨ a.year = b.year := by
    rw [date0_text, date0_text] at h
    have := (strLe_pad4 ha.1 hb.1 _ _).1 h
    omega
  rcases hy with hy | hy
  · exact .inl hy
  · refine .inr ⟨hy, ?_⟩
    obtain ⟨h1, h2, -⟩ := text_order (pos_ok ha na) (pos_ok hb nb) rfl rfl h
    rw [pos_first, pos_last nb] at h2
    rw [pos_first, pos_first] at h1
    have e : (Date0.pos a).value = (Date0.pos b).value := by
      show (a.year : Int) = b.year
      rw [hy]
    rw [pos_value a na, pos_value b nb]
    unfold dayLe at *
    omega

theorem neg_value {x : Date0} (h : x.neg = true) : x.value = -(x.year : Int) := by unfold Date0.value; rw [h]; rfl
theorem nonneg_value {x : Date0} (h : x.neg = false) : x.value = (x.year : Int) := by unfold Date0.value; rw [h]; rfl

/-- C25, exactly when the lower bound of a closed set (without "-0000") is the
earliest first second of its members: when the members before year 0 are all of
one year. -/
theorem C25_lower_exact_partial (hf : DayCount f) {o c : Char} (hb : Brackets o c) {ps : List Part} (h0 : ps ≠ [])
    (h1 : ∀ p ∈ ps, p.isUpTo = false) (h2 : ∀ p ∈ ps, p.isOnFrom = false) (hok : ∀ x ∈ members ps, x.ok)
    (hz : ∀ x ∈ members ps, x.neg = true → x.year ≠ 0) :
    ∃ (d : EDTFDate) (lo : Int), parseString (setText o c ps) = .ok d ∧ d.lower = .ok lo ∧
      ((∀ x ∈ members ps, lo ≤ firstSecond f x) ↔ ∀ x ∈ members ps, ∀ y ∈ members ps, x.neg = true → y.neg = true → x.year = y.year) := by
  obtain ⟨a, b, d, s1, s2, e1, e2, la, gb, hp, -, -, -, lo, up, -⟩ := set_closed hf hb h0 h1 h2 hok
  refine ⟨d, _, hp, lo, ?_⟩
  have hA := hok a la.1
  constructor
  · intro hall
    have key : ∀ x ∈ members ps, x.neg = true → a.year = x.year := by
      intro x hx nx
      have hle := la.2 x hx
      cases na : a.neg with
      | false => rw [neg_before na nx] at hle; cases hle
      | true =>
        rcases neg_order hA (hok x hx) na nx hle with hlt | h
        · exfalso
          have := hall x hx
          have := day_lt hf (Date0.valid_first (hok x hx)) (Date0.valid_first hA) (.inl (by rw [neg_value nx, neg_value na]; omega))
          unfold firstSecond at *
          omega
        · exact h.1
    intro x hx y hy nx ny
    rw [← key x hx nx, ← key y hy ny]
  · intro hall x hx
    have hle := la.2 x hx
    have : dayLe a.value a.first.1 a.first.2 x.value x.first.1 x.first.2 := by
      cases na : a.neg with
      | false =>
        cases nx : x.neg with
        | false => exact (text_order hA (hok x hx) na nx hle).1
        | true => rw [neg_before na nx] at hle; cases hle
      | true =>
        cases nx : x.neg with
        | false =>
          refine .inl ?_
          have := hz a la.1 na
          rw [neg_value na, nonneg_value nx]
          omega
        | true =>
          rcases neg_order hA (hok x hx) na nx hle with hlt | h
          · have := hall a la.1 x hx na nx
            omega
          · exact h.2.1
    have := day_order hf (Date0.valid_first hA) (Date0.valid_first (hok x hx)) this
    unfold firstSecond
    omega

example : Brackets '{' '}' ∧ (∀ x ∈ members [Part.one ⟨true, 44, .none⟩, .pair ⟨false, 1985, .month 4⟩ ⟨false, 1986, .none⟩], x.ok ∧ (x.neg = true → x.year ≠ 0)) ∧
    setText '{' '}' [Part.one ⟨true, 44, .none⟩, .pair ⟨false, 1985, .month 4⟩ ⟨false, 1986, .none⟩] = c! "{-0044,1985-04..1986}" :=
  ⟨by unfold Brackets; decide, by decide, by decide⟩

/-- C25, exactly when the upper bound of a closed set (without "-0000") is the
latest last second: when there is a member after year 0 or all are of one
year, and no member ends later in the year of the member written last. -/
theorem C25_upper_exact_partial (hf : DayCount f) {o c : Char} (hb : Brackets o c) {ps : List Part} (h0 : ps ≠ [])
    (h1 : ∀ p ∈ ps, p.isUpTo = false) (h2 : ∀ p ∈ ps, p.isOnFrom = false) (hok : ∀ x ∈ members ps, x.ok)
    (hz : ∀ x ∈ members ps, x.neg = true → x.year ≠ 0) :
    ∃ (d : EDTFDate) (up : Int) (b : Date0), parseString (setText o c ps) = .ok d ∧ d.upper = .ok up ∧ Greatest b (members ps) ∧
      ((∀ x ∈ members ps, lastSecond f x ≤ up) ↔
        ((∃ x ∈ members ps, x.neg = false) ∨ ∀ x ∈ members ps, ∀ y ∈ members ps, x.year = y.year) ∧
        ∀ x ∈ members ps, x.value = b.value → lastSecond f x ≤ lastSecond f b) := by
  obtain ⟨a, b, d, s1, s2, e1, e2, la, gb, hp, -, -, -, lo, up, -⟩ := set_closed hf hb h0 h1 h2 hok
  refine ⟨d, _, b, hp, up, gb, ?_⟩
  have hB := hok b gb.1
  constructor
  · intro hall
    refine ⟨?_, fun x hx _ => hall x hx⟩
    by_cases hex : ∃ x ∈ members ps, x.neg = false
    · exact .inl hex
    · refine .inr ?_
      have hneg : ∀ x ∈ members ps, x.neg = true := by
        intro x hx
        cases hn : x.neg with
        | true => rfl
        | false => exact absurd ⟨x, hx, hn⟩ hex
      have key : ∀ x ∈ members ps, x.year = b.year := by
        intro x hx
        rcases neg_order (hok x hx) hB (hneg x hx) (hneg b gb.1) (gb.2 x hx) with hlt | h
        · exfalso
          have := hall x hx
          have := day_lt hf (Date0.valid_last hB) (Date0.valid_last (hok x hx))
            (.inl (by rw [neg_value (hneg x hx), neg_value (hneg b gb.1)]; omega))
          unfold lastSecond at *
          omega
        · exact h.1
      intro x hx y hy
      rw [key x hx, key y hy]
  · rintro ⟨hc, hsame⟩ x hx
    have hle := gb.2 x hx
    by_cases hv : x.value = b.value
    · exact hsame x hx hv
    have : x.value < b.value := by
      cases nb : b.neg with
      | false =>
        rw [nonneg_value nb] at hv ⊢
        cases nx : x.neg with
        | false =>
          have := (text_order (hok x hx) hB nx nb hle).1
          unfold dayLe at this
          rw [nonneg_value nb] at this
          omega
        | true =>
          have := hz x hx nx
          rw [neg_value nx]
          omega
      | true =>
        exfalso
        rcases hc with ⟨y, hy, ny⟩ | hc
        · have := gb.2 y hy
          rw [neg_before ny nb] at this
          cases this
        · have e := hc x hx b gb.1
          cases nx : x.neg with
          | false => rw [neg_before nx nb] at hle; cases hle
          | true => rw [neg_value nx, neg_value nb, e] at hv; exact hv rfl
    have := day_lt hf (Date0.valid_last (hok x hx)) (Date0.valid_last hB) (.inl this)
    unfold lastSecond
    omega

/-- "{-0100,1990,-0100-05}" has its members before year 0 in one year; "{-0100,-0200}" does not. -/
example : setText '{' '}' [.one ⟨true, 100, .none⟩, .one ⟨false, 1990, .none⟩, .one ⟨true, 100, .month 5⟩] = c! "{-0100,1990,-0100-05}" ∧
    (∀ x ∈ members [.one ⟨true, 100, .none⟩, .one ⟨false, 1990, .none⟩, .one ⟨true, 100, .month 5⟩], x.ok) ∧
    (∀ x ∈ members [.one ⟨true, 100, .none⟩, .one ⟨false, 1990, .none⟩, .one ⟨true, 100, .month 5⟩],
      ∀ y ∈ members [.one ⟨true, 100, .none⟩, .one ⟨false, 1990, .none⟩, .one ⟨true, 100, .month 5⟩],
        x.neg = true → y.neg = true → x.year = y.year) := by decide

/-! ### The order in a range -/

theorem ordered_iff {d : EDTFDate} {A B : DateRange} (h1 : d.start = some A) (h2 : d.stop = some B) :
    Ordered d ↔ RangeLe (some A) ∧ RangeLe (some B) := by
  constructor
  · intro h
    constructor
    · intro e l u tl tu hr htl htu
      injection hr with hr
      exact h A (.inl h1) l u tl tu (by rw [hr]) (by rw [hr]) htl htu
    · intro e l u tl tu hr htl htu
      injection hr with hr
      exact h B (.inr h2) l u tl tu (by rw [hr]) (by rw [hr]) htl htu
  · intro h
    exact ordered_of (by rw [h1, h2]; exact h)

theorem rangeLe_dates_iff {e : Str} {y1 y2 : Int} {m1 d1 m2 d2 : Nat} {u1 a1 p1 u2 a2 p2 : Prec} :
    RangeLe (some ⟨e, some (dayStart U y1 m1 d1 u1 a1 p1), some (dayEnd U y2 m2 d2 u2 a2 p2)⟩) ↔
      86400 * unixDay y1 m1 d1 ≤ 86400 * unixDay y2 m2 d2 + 86399 := by
  rw [rangeLe_mk]
  simp [dayStart, dayEnd, dated]

theorem first_le_last {x : Date0} (h : x.ok) : dayLe x.value x.first.1 x.first.2 x.value x.last.1 x.last.2 := by
  have V := Date0.valid_first h
  have V' := Date0.valid_last h
  obtain ⟨n, y, t⟩ := x
  cases t with
  | none => exact .inr ⟨rfl, .inl (show 1 < 12 by decide)⟩
  | month m => exact .inr ⟨rfl, .inr ⟨rfl, V'.2.2.1⟩⟩
  | day m d => exact .inr ⟨rfl, .inr ⟨rfl, Nat.le_refl _⟩⟩

/-- C32, exactly when the ranges of a set of existing dates are in order: unless
exactly one side is open and the member written last is over before the one
written first begins. -/
theorem C32_sets_written_partial (hf : DayCount f) {o c : Char} (hb : Brackets o c) {ps : List Part} (hS : SetOk ps) (hok : ∀ x ∈ members ps, x.ok) :
    ∃ a b d, Least a (members ps) ∧ Greatest b (members ps) ∧ parseString (setText o c ps) = .ok d ∧
      (Ordered d ↔ ¬ ((ps.any Part.isUpTo != ps.any Part.isOnFrom) = true ∧ lastSecond f b < firstSecond f a)) := by
  obtain ⟨a, b, la, gb, ea, eb⟩ := exists_ends (members_ne_nil hS.1)
  have hA := hok a la.1
  have hB := hok b gb.1
  suffices ∃ d, parseString (setText o c ps) = .ok d ∧
      (Ordered d ↔ ¬ ((ps.any Part.isUpTo != ps.any Part.isOnFrom) = true ∧ lastSecond U b < firstSecond U a)) by
    obtain ⟨d, h⟩ := this
    rw [← firstSecond_eq hf hA, ← lastSecond_eq hf hB] at h
    exact ⟨a, b, d, la, gb, h⟩
  have hp := parse_set hb hS (fun x hx => ok_shape' (hok x hx))
  have main : (86400 * unixDay a.value a.first.1 a.first.2 ≤ 86400 * unixDay b.value b.last.1 b.last.2 + 86399) ↔
      ¬ lastSecond U b < firstSecond U a := Int.not_lt.symm
  by_cases hop : (ps.any Part.isUpTo || ps.any Part.isOnFrom) = true
  · by_cases hl : 1 < (sortStrings ((members ps).map Date0.text)).length
    · rw [setSpan_open hA hB hl ea eb _ _ hop] at hp
      refine ⟨_, hp, ?_⟩
      cases so : ps.any Part.isUpTo <;> cases eo : ps.any Part.isOnFrom <;> rw [so, eo] at hop
      · cases hop
      · rw [ordered_iff (A := flagged _ ⟨a.text, _, _⟩) (B := ⟨[], some openEnd, some openEnd⟩) rfl rfl,
          rangeLe_flag, rangeLe_dates_iff, main]
        simp [rangeLe_open]
      · rw [ordered_iff (A := ⟨[], some openEnd, some openEnd⟩) (B := flagged _ ⟨b.text, _, _⟩) rfl rfl,
          rangeLe_flag, rangeLe_dates_iff, main]
        simp [rangeLe_open]
      · simp only [bne_self_eq_false, Bool.false_eq_true, false_and, not_false_eq_true, iff_true]
        refine ordered_of ?_
        exact ⟨rangeLe_open, rangeLe_open⟩
    · have hl' : (members ps).length ≤ 1 := by rw [length_sortStrings] at hl; simpa using hl
      have hps : ps.length ≤ 1 := by
        have : ∀ qs : List Part, qs.length ≤ (members qs).length := by
          intro qs
          induction qs with
          | nil => simp
          | cons q qs ih => cases q <;> simp [members, Part.dates] at ih ⊢ <;> omega
        exact Nat.le_trans (this ps) hl'
      obtain ⟨x, hxs⟩ : ∃ x, members ps = [x] := eq_singleton (members_ne_nil hS.1) hl'
      have hx := hok x (by rw [hxs]; simp)
      have hr : RangeLe (some (flagged (setFlag o) (x.range U x.text 0 0 Prec.YEAR))) :=
        rangeLe_flag.2 (rangeLe_dates (Date0.valid_first hx) (Date0.valid_last hx) (first_le_last hx))
      have triv : ¬ lastSecond U b < firstSecond U a := by
        have h1 := la.1
        have h2 := gb.1
        rw [hxs, List.mem_singleton] at h1 h2
        rw [h1, h2]
        have := unixDay_le (Date0.valid_first hx) (Date0.valid_last hx) (first_le_last hx)
        show ¬ 86400 * unixDay x.value x.last.1 x.last.2 + 86399 < 86400 * unixDay x.value x.first.1 x.first.2
        omega
      obtain ⟨p, rfl⟩ := eq_singleton hS.1 hps
      cases p with
      | one x => cases hop
      | pair x y => cases hop
      | upTo z =>
        have : z = x := by simpa [members, Part.dates] using hxs
        subst this
        obtain ⟨d, hd, -, h1, h2⟩ := C26_upTo dayCount_unixDay hb hx
        refine ⟨d, hd, iff_of_true (ordered_of ?_) (fun h => triv h.2)⟩
        rw [h1, h2]
        exact ⟨rangeLe_open, hr⟩
      | onFrom z =>
        have : z = x := by simpa [members, Part.dates] using hxs
        subst this
        obtain ⟨d, hd, -, h1, h2⟩ := C26_onFrom dayCount_unixDay hb hx
        refine ⟨d, hd, iff_of_true (ordered_of ?_) (fun h => triv h.2)⟩
        rw [h1, h2]
        exact ⟨hr, rangeLe_open⟩
  · obtain ⟨h1, h2⟩ := Bool.or_eq_false_iff.1 (Bool.eq_false_iff.2 hop)
    rw [h1, h2]
    simp only [bne_self_eq_false, Bool.false_eq_true, false_and, not_false_eq_true, iff_true]
    rw [List.any_eq_false] at h1 h2
    obtain ⟨_, _, d, s1, s2, e1, e2, -, -, hd, -, -, -, -, -, hs, he, hx⟩ := set_closed dayCount_unixDay hb hS.1
      (fun p hp => by simpa using h1 p hp) (fun p hp => by simpa using h2 p hp) hok
    refine ⟨d, hd, C32_order_partial hd (.inr ?_)⟩
    intro r b hr hb'
    rw [hs, he] at hr
    refine (hx b ?_).2.1
    rcases hr with hr | hr <;> (injection hr with hr; subst hr) <;> rcases hb' with hb' | hb' <;> (injection hb' with hb'; subst hb') <;> simp

/-- The members of the year -0000 are written before those of the year 0000. -/
example : ∃ d, parseString (c! "[-0000-06-01,0000-03..]") = .ok d ∧ ¬ Ordered d := by
  obtain ⟨a, b, d, ha, hb, hp, hd⟩ := C32_sets_written_partial dayCount_unixDay (o := '[') (c := ']') (by decide)
    (ps := [.one ⟨true, 0, .day 6 1⟩, .onFrom ⟨false, 0, .month 3⟩]) ⟨by decide, by decide, by decide⟩ (by decide)
  refine ⟨d, hp, fun k => hd.1 k ⟨by decide, ?_⟩⟩
  have h1 : a = ⟨true, 0, .day 6 1⟩ := by
    rcases List.mem_cons.1 ha.1 with h | h
    · exact h
    · rcases List.mem_cons.1 h with rfl | h
      · exact absurd (ha.2 ⟨true, 0, .day 6 1⟩ (by decide)) (by decide)
      · cases h
  have h2 : b = ⟨false, 0, .month 3⟩ := by
    rcases List.mem_cons.1 hb.1 with rfl | h
    · exact absurd (hb.2 ⟨false, 0, .month 3⟩ (by decide)) (by decide)
    · rcases List.mem_cons.1 h with h | h
      · exact h
      · cases h
  subst h1 h2
  decide

/-- C32, exactly when the ranges of a set of existing dates (without "-0000") are
in order: unless exactly one side is open and the members are all before year 0
and not all of one year. -/
theorem C32_sets_exact_partial {o c : Char} (hb : Brackets o c) {ps : List Part} (hS : SetOk ps) (hok : ∀ x ∈ members ps, x.ok)
    (hz : ∀ x ∈ members ps, x.neg = true → x.year ≠ 0) :
    ∃ d, parseString (setText o c ps) = .ok d ∧
      (Ordered d ↔ ¬ ((ps.any Part.isUpTo != ps.any Part.isOnFrom) = true ∧ (∀ x ∈ members ps, x.neg = true) ∧
        ∃ x ∈ members ps, ∃ y ∈ members ps, x.year ≠ y.year)) := by
  obtain ⟨a, b, d, la, gb, hp, hd⟩ := C32_sets_written_partial dayCount_unixDay hb hS hok
  have hA := hok a la.1
  have hB := hok b gb.1
  have main : (86400 * unixDay a.value a.first.1 a.first.2 ≤ 86400 * unixDay b.value b.last.1 b.last.2 + 86399) ↔
      ¬ ((∀ x ∈ members ps, x.neg = true) ∧ ∃ x ∈ members ps, ∃ y ∈ members ps, x.year ≠ y.year) := by
    have hab := la.2 b gb.1
    have VA := Date0.valid_first hA
    have VB := Date0.valid_last hB
    have le : dayLe a.value a.first.1 a.first.2 b.value b.last.1 b.last.2 →
        86400 * unixDay a.value a.first.1 a.first.2 ≤ 86400 * unixDay b.value b.last.1 b.last.2 + 86399 := by
      intro h
      have := unixDay_le VA VB h
      omega
    constructor
    · rintro h ⟨hneg, x, hx, y, hy, hne⟩
      have kx := neg_order hA (hok x hx) (hneg _ la.1) (hneg _ hx) (la.2 x hx)
      have ky := neg_order hA (hok y hy) (hneg _ la.1) (hneg _ hy) (la.2 y hy)
      have lx := neg_order (hok x hx) hB (hneg _ hx) (hneg _ gb.1) (gb.2 x hx)
      have ly := neg_order (hok y hy) hB (hneg _ hy) (hneg _ gb.1) (gb.2 y hy)
      have : a.year < b.year := by omega
      have := day_lt dayCount_unixDay VB VA (.inl (by rw [neg_value (hneg a la.1), neg_value (hneg b gb.1)]; omega))
      omega
    · intro h
      apply le
      cases na : a.neg with
      | false =>
        cases nb : b.neg with
        | false => exact (text_order hA hB na nb hab).2.1
        | true => rw [neg_before na nb] at hab; cases hab
      | true =>
        cases nb : b.neg with
        | false =>
          refine .inl ?_
          have := hz a la.1 na
          rw [neg_value na, nonneg_value nb]
          omega
        | true =>
          rcases neg_order hA hB na nb hab with hlt | h'
          · exfalso
            refine h ⟨fun x hx => ?_, a, la.1, b, gb.1, by omega⟩
            cases nx : x.neg with
            | true => rfl
            | false => have := gb.2 x hx; rw [neg_before nx nb] at this; cases this
          · exact h'.2.2
  refine ⟨d, hp, hd.trans ?_⟩
  rw [show lastSecond U b < firstSecond U a ↔ ¬ (86400 * unixDay a.value a.first.1 a.first.2 ≤ 86400 * unixDay b.value b.last.1 b.last.2 + 86399) from Int.not_le.symm,
    main, Classical.not_not]

/-- "{-0100,-0200..}" is out of order, "{-0100,-0100-05..}" is in order. -/
example : (∃ d, parseString (c! "{-0100,-0200..}") = .ok d ∧ ¬ Ordered d) ∧ ∃ d, parseString (c! "{-0100,-0100-05..}") = .ok d ∧ Ordered d := by
  obtain ⟨d, h1, h2⟩ := C32_sets_exact_partial (o := '{') (c := '}') (by decide) (ps := [.one ⟨true, 100, .none⟩, .onFrom ⟨true, 200, .none⟩])
    ⟨by decide, by decide, by decide⟩ (by decide) (by decide)
  obtain ⟨d', h1', h2'⟩ := C32_sets_exact_partial (o := '{') (c := '}') (by decide) (ps := [.one ⟨true, 100, .none⟩, .onFrom ⟨true, 100, .month 5⟩])
    ⟨by decide, by decide, by decide⟩ (by decide) (by decide)
  exact ⟨⟨d, h1, fun h => h2.1 h (by decide)⟩, d', h1', h2'.2 (by decide)⟩

end EDTF
