/-
The texts of the errors of one date.
-/
import Verif.LemmasMessage
import Verif.SpecMessage
import Verif.PropsRange
namespace EDTF
open Spec Told

/-- A printable character that is not escaped. -/
def bare (c : Char) : Bool := c != '"' && c != '\\' && decide (32 ≤ c.toNat) && decide (c.toNat < 128)

theorem quoteText_bare {s : Str} (h : ∀ c ∈ s, bare c = true) : quoteText s = quoted s := by
  have : s.flatMap (fun c =>
      if c = '"' ∨ c = '\\' then ['\\', c]
      else if 32 ≤ c.toNat ∧ c.toNat < 128 then [c]
      else (String.utf8EncodeChar c).flatMap (fun b => c! "\\x" ++ hexByte b)) = s := by
    induction s with
    | nil => rfl
    | cons c s ih =>
      have hc := h c (by simp)
      unfold bare at hc
      simp only [Bool.and_eq_true, bne_iff_ne, decide_eq_true_eq, ne_eq] at hc
      rw [List.flatMap_cons, ih fun d hd => h d (by simp [hd]), if_neg (by simp [hc.1.1.1, hc.1.1.2]), if_pos ⟨hc.1.2, hc.2⟩]
      rfl
  unfold quoteText quoted
  rw [this]
  rfl

theorem quoteGo_bare {s : Str} (h : ∀ c ∈ s, bare c = true ∧ c.toNat ≠ 127) : quoteGo s = quoted s := by
  have : s.flatMap escapeGo = s := by
    induction s with
    | nil => rfl
    | cons c s ih =>
      obtain ⟨hc, h127⟩ := h c (by simp)
      unfold bare at hc
      simp only [Bool.and_eq_true, bne_iff_ne, decide_eq_true_eq, ne_eq] at hc
      rw [List.flatMap_cons, ih fun d hd => h d (by simp [hd])]
      unfold escapeGo
      rw [if_neg (by simp [hc.1.1.1, hc.1.1.2]), if_neg (by omega), if_neg (by omega), if_neg (by omega), if_neg (by omega), if_neg (by omega),
        if_neg (by omega), if_neg (by omega), if_neg (by omega), if_pos (.inl (by omega))]
      rfl
  unfold quoteGo quoted
  rw [this]
  rfl

theorem bare_isDX {c : Char} (h : isDX c = true) : bare c = true := by
  rcases isDX_cases h with ⟨h, -⟩ | rfl
  · obtain ⟨k, hk, rfl⟩ := (isDig_iff _).1 h
    have : k ∈ List.range 10 := List.mem_range.2 hk
    revert this
    revert k
    decide
  · decide

theorem not_127 {c : Char} (h : isDX c = true) : c.toNat ≠ 127 := by
  rcases isDX_cases h with ⟨h, -⟩ | rfl
  · obtain ⟨k, hk, rfl⟩ := (isDig_iff _).1 h
    have : k ∈ List.range 10 := List.mem_range.2 hk
    revert this
    revert k
    decide
  · decide

theorem bare_sgn {neg : Bool} {w : Str} (h : ∀ c ∈ w, isDX c = true) : ∀ c ∈ sgn neg w, bare c = true := by
  intro c hc
  unfold sgn at hc
  split at hc
  · rcases List.mem_cons.1 hc with rfl | hc
    · decide
    · exact bare_isDX (h c hc)
  · exact bare_isDX (h c hc)

theorem first_isDX {c : Char} (h : isDX c = true) : c ≠ '-' ∧ c ≠ '+' := by
  rcases isDX_cases h with ⟨h1, -⟩ | h1
  · exact ⟨isDig_ne h1 (by decide), isDig_ne h1 (by decide)⟩
  · subst h1; decide

theorem not_all_X {w : Str} (h : 'X' ∈ w) : w.all isDig = false := by
  cases e : w.all isDig with
  | false => rfl
  | true => exact absurd (List.all_eq_true.1 e _ h) (by decide)

theorem takeWhile_all (p : Char → Bool) (w : Str) : (w.takeWhile p).all p = true := by
  induction w with
  | nil => rfl
  | cons c w ih =>
    cases h : p c
    · simp [List.takeWhile_cons, h]
    · simp only [List.takeWhile_cons, h, if_true, List.all_cons, ih, Bool.and_self]

theorem takeWhile_length (p : Char → Bool) (w : Str) : (w.takeWhile p).length ≤ w.length := by
  induction w with
  | nil => exact Nat.le_refl _
  | cons c w ih =>
    cases h : p c
    · simp [List.takeWhile_cons, h]
    · simp only [List.takeWhile_cons, h, if_true, List.length_cons]; omega

theorem short_lt {w : Str} (hl : w.length ≤ 4) : digitsVal (w.takeWhile isDig) < 18446744073709551616 := by
  have h := digitsVal_lt (w.takeWhile isDig) (takeWhile_all isDig w)
  have hle : (w.takeWhile isDig).length ≤ 4 := Nat.le_trans (takeWhile_length isDig w) hl
  have := Nat.pow_le_pow_right (n := 10) (by decide) hle
  omega

/-- A text with an unspecified digit is no number. -/
theorem atoiM_X {neg : Bool} {w : Str} (hw : ∀ c ∈ w, isDX c = true) (hX : 'X' ∈ w) (hl : w.length ≤ 4) :
    atoiM (sgn neg w) = .says (noNumber (sgn neg w)) := by
  have hall := not_all_X hX
  have hq := quoteGo_bare (fun c hc => ⟨bare_sgn (neg := neg) hw c hc, by
    unfold sgn at hc
    split at hc
    · rcases List.mem_cons.1 hc with rfl | hc
      · decide
      · exact not_127 (hw c hc)
    · exact not_127 (hw c hc)⟩)
  have hm : numMessage 64 (sgn neg w) = c! "invalid syntax" := by
    unfold numMessage
    cases neg with
    | true => simp [sgn, hall, short_lt hl]
    | false =>
      cases w with
      | nil => cases hX
      | cons c w =>
        have hc := first_isDX (hw c (by simp))
        simp only [sgn, Bool.false_eq_true, if_false]
        split
        · rename_i h; injection h with h _; exact absurd h hc.1
        · rename_i h; injection h with h _; exact absurd h hc.2
        · rw [if_pos (by simp [hall, short_lt hl])]
  have ha : atoi (sgn neg w) = none := by
    unfold atoi parseInt
    cases neg with
    | true => simp [sgn, hall]
    | false =>
      cases w with
      | nil => cases hX
      | cons c w =>
        have hc := first_isDX (hw c (by simp))
        simp only [sgn, Bool.false_eq_true, if_false]
        split
        · rename_i h; injection h with h _; exact absurd h hc.1
        · rename_i h; injection h with h _; exact absurd h hc.2
        · simp [hall]
  unfold atoiM
  rw [ha]
  simp only [numError, hq, hm, noNumber]
  simp

/-! ### Years, months and days that are numbers, and those that are not -/

theorem last_X4 {a b c d : Char} : ([a, b, c, d] : Str).getLast? = some d := rfl

theorem like_lengths {e : Endpoint} (h : e.like) : e.date.year.length ≤ 4 ∧ e.date.mx.length ≤ 4 ∧ e.date.dx.length ≤ 4 := by
  refine ⟨Nat.le_of_eq h.1.1.1, ?_, ?_⟩
  · rcases like_mx h with e1 | e1
    · rw [e1]; decide
    · obtain ⟨a, b, e2, -⟩ := lang_monthX_DX e1
      rw [e2]; simp
  · rcases like_dx h with e1 | e1
    · rw [e1]; decide
    · obtain ⟨a, b, e2, -⟩ := lang_dayX_DX e1
      rw [e2]; simp

theorem like_chars {e : Endpoint} (h : e.like) :
    (∀ c ∈ e.date.year, isDX c = true) ∧ (∀ c ∈ e.date.mx, isDX c = true) ∧ (∀ c ∈ e.date.dx, isDX c = true) := by
  refine ⟨fun c hc => xdigit_iff.1 (h.1.1.2.1 c hc), ?_, ?_⟩
  · rcases like_mx h with e1 | e1
    · rw [e1]; intro c hc; cases hc
    · obtain ⟨a, b, e2, ha, hb⟩ := lang_monthX_DX e1
      rw [e2]; intro c hc
      simp only [List.mem_cons, List.not_mem_nil, or_false] at hc
      rcases hc with rfl | rfl <;> assumption
  · rcases like_dx h with e1 | e1
    · rw [e1]; intro c hc; cases hc
    · obtain ⟨a, b, e2, ha, hb⟩ := lang_dayX_DX e1
      rw [e2]; intro c hc
      simp only [List.mem_cons, List.not_mem_nil, or_false] at hc
      rcases hc with rfl | rfl <;> assumption

theorem noX_digits {w : Str} (h : ∀ c ∈ w, isDX c = true) (hX : 'X' ∉ w) : w.all isDig = true := by
  rw [List.all_eq_true]
  intro c hc
  rcases isDX_cases (h c hc) with k | rfl
  · exact k.1
  · exact absurd hc hX

theorem year_sort {neg : Bool} {y : Str} (hl : y.length = 4) (hx : ∀ c ∈ y, isDX c = true)
    (hy : ∀ a b c, y = [a, b, c, 'X'] → a ≠ 'X' ∧ neg = false) :
    (¬ Hole y ∧ ∃ y1 y2 p, YearSpan (sgn neg y) y1 y2 p) ∨
    (Hole y ∧ ∀ s, yearRange s (sgn neg y) = .ok (sgn neg y, sgn neg y, Prec.YEAR)) := by
  obtain ⟨a, b, c, d, rfl⟩ := four_chars hl
  have ha := hx a (by simp)
  have hb := hx b (by simp)
  have hc := hx c (by simp)
  by_cases hd : d = 'X'
  · subst hd
    obtain ⟨h1, h2⟩ := hy _ _ _ rfl
    subst h2
    refine .inl ⟨fun h => h.2 rfl, ?_⟩
    exact ⟨_, _, _, YearSpan.x a b c ((isDX_cases ha).elim (fun k => k.1) (fun k => absurd k h1)) hb hc⟩
  · by_cases hX : 'X' ∈ [a, b, c, d]
    · refine .inr ⟨⟨hX, ?_⟩, fun s => yearRange_plain s (by rw [hasSuffix_X4]; simpa using hd)⟩
      rw [last_X4]
      intro h
      injection h with h
      exact hd h
    · obtain ⟨n, hn, e1⟩ := four_digits' (noX_digits hx hX) rfl
      refine .inl ⟨fun h => hX h.1, ?_⟩
      rw [e1]
      exact ⟨_, _, _, YearSpan.plain neg n hn⟩

theorem month_sort {w : Str} (hw : w = [] ∨ Lang Rx.monthX w) :
    (¬ Hole w ∧ ∃ m1 m2, MonthSpan w m1 m2) ∨ (Hole w ∧ ∀ p, ∃ q, monthRange w p = (w, w, q)) := by
  rcases hw with rfl | hw
  · exact .inl ⟨fun h => absurd h.1 (by simp), _, _, .none⟩
  · obtain ⟨a, b, rfl, ha, hb⟩ := lang_monthX_DX hw
    by_cases hB : b = 'X'
    · subst hB
      refine .inl ⟨fun h => h.2 rfl, ?_⟩
      rcases lang_monthX_iff.1 hw with ⟨rfl | rfl, -⟩ | ⟨rfl | rfl, -⟩
      · exact ⟨_, _, .dx '0' (.inl rfl)⟩
      · exact ⟨_, _, .xx⟩
      · exact ⟨_, _, .dx '1' (.inr rfl)⟩
      · exact ⟨_, _, .xx⟩
    · have e1 : hasSuffix [a, b] (c! "X") = false := by rw [hasSuffix_X2]; simpa using hB
      by_cases hX : 'X' ∈ [a, b]
      · refine .inr ⟨⟨hX, ?_⟩, fun p => ⟨if [a, b] ≠ [] ∧ p = Prec.NONE then Prec.MONTH else p, ?_⟩⟩
        · intro h
          injection h with h
          exact hB h
        · unfold monthRange
          rw [e1]
          rfl
      · refine .inl ⟨fun h => hX h.1, ?_⟩
        refine monthSpan_of_ok (p := Prec.YEAR) (.inr hw) ?_
        have hD : ∀ c ∈ [a, b], isDX c = true := by
          intro c hc
          simp only [List.mem_cons, List.not_mem_nil, or_false] at hc
          rcases hc with rfl | rfl <;> assumption
        obtain ⟨n, hn, e⟩ := two_digits' (noX_digits hD hX) rfl
        unfold monthRange
        rw [e1, e]
        simp only [Bool.not_false, if_true, pad2_ne_nil, if_false]
        exact ⟨_, atoi_pad2 hn⟩

theorem day_sort {w : Str} (hw : w = [] ∨ Lang Rx.dayX w) (h0 : w ≠ c! "0X") :
    (¬ Hole w ∧ ∀ l1 l2, ∃ d1 d2, DaySpan w l1 l2 d1 d2) ∨ (Hole w ∧ ∀ s p, ∃ q, dayRange s w p = .ok (w, w, q)) := by
  rcases hw with rfl | hw
  · exact .inl ⟨fun h => absurd h.1 (by simp), fun _ _ => ⟨_, _, .none _ _⟩⟩
  · obtain ⟨a, b, rfl, ha, hb⟩ := lang_dayX_DX hw
    by_cases hB : b = 'X'
    · subst hB
      refine .inl ⟨fun h => h.2 rfl, fun l1 l2 => ?_⟩
      rcases lang_dayX_iff.1 hw with ⟨rfl | rfl | rfl | rfl, -⟩ | ⟨rfl | rfl, -⟩
      · exact absurd rfl h0
      · exact ⟨_, _, .x1 _ _⟩
      · exact ⟨_, _, .x2 _ _⟩
      · exact ⟨_, _, .xx _ _⟩
      · exact ⟨_, _, .x3 _ _⟩
      · exact ⟨_, _, .xx _ _⟩
    · have e1 : hasSuffix [a, b] (c! "X") = false := by rw [hasSuffix_X2]; simpa using hB
      by_cases hX : 'X' ∈ [a, b]
      · refine .inr ⟨⟨hX, ?_⟩, fun s p => ⟨if [a, b] ≠ [] ∧ p = Prec.NONE then Prec.DAY else p, ?_⟩⟩
        · intro h
          injection h with h
          exact hB h
        · unfold dayRange
          rw [e1]
          rfl
      · refine .inl ⟨fun h => hX h.1, fun l1 l2 => ?_⟩
        have hD : ∀ c ∈ [a, b], isDX c = true := by
          intro c hc
          simp only [List.mem_cons, List.not_mem_nil, or_false] at hc
          rcases hc with rfl | rfl <;> assumption
        obtain ⟨n, hn, e⟩ := two_digits' (noX_digits hD hX) rfl
        refine daySpan_of_ok (e := []) (p := Prec.YEAR) (.inr hw) (s1 := [a, b]) (s2 := [a, b]) (q := Prec.YEAR) ?_ ?_ l1 l2
        · unfold dayRange
          rw [e1]
          rfl
        · rw [e]
          simp only [pad2_ne_nil, if_false]
          exact ⟨_, atoi_pad2 hn⟩

/-! ### The range of a date -/

/-- `rangeOf` with the texts of errors. -/
def rangeOfM (edtf_str yyyy mm dd : Str) (ua : Prec × Prec) : Told StringRange := do
  let (start_yyyy, end_yyyy, p) ← yearRangeM edtf_str yyyy
  let (start_mm, end_mm, p) := monthRange mm p
  let (start_dd, end_dd, p) ← Told.lift (dayRange edtf_str dd p)
  let p := if dd = c! "XX" ∧ mm = c! "XX" then Prec.YEAR else if dd = c! "XX" then Prec.MONTH else p
  let start_mm := if start_mm = [] then c! "01" else start_mm
  let start_dd := if start_dd = [] then c! "01" else start_dd
  let end_mm := if end_mm = [] then c! "12" else end_mm
  let end_dd ← endDayM end_dd end_yyyy end_mm
  .ok ⟨⟨start_yyyy, start_mm, start_dd⟩, ⟨end_yyyy, end_mm, end_dd⟩, p, ua.1, ua.2⟩

theorem rangeOfM_forget (a b c d : Str) (ua : Prec × Prec) : (rangeOfM a b c d ua).forget = rangeOf a b c d ua := by
  unfold rangeOfM rangeOf
  simp only [forget_bind, forget_lift, yearRangeM_forget, endDayM_forget]
  rfl

theorem ok_bindM {α β : Type} (a : α) (f : α → Told β) : (Told.ok a >>= f) = f a := rfl
theorem fault_bindM {α β : Type} (e : Fault) (f : α → Told β) : (Told.fault e >>= f) = .fault e := rfl
theorem says_bindM {α β : Type} (e : Str) (f : α → Told β) : ((Told.says e : Told α) >>= f) = .says e := rfl
theorem lift_ok {α : Type} (a : α) : Told.lift (.ok a) = .ok a := rfl

theorem bind_says {α β : Type} {x : Told α} {f : α → Told β} {t : Str} :
    (x >>= f) = .says t ↔ x = .says t ∨ ∃ a, x = .ok a ∧ f a = .says t := bind_fault

theorem stringRangeM_form {F : YMDForm} (hF : F.ok) :
    stringRangeFromYMDM F.text = rangeOfM F.text F.yx F.mx F.dx (qualFlags F.yc.q.qual F.mq.qual F.dq.qual) := by
  obtain ⟨m, e, c1, c2, c3⟩ := ymd_submatch_form hF
  unfold stringRangeFromYMDM
  rw [e]
  simp only [c1, c2, c3]
  have nil : componentIf ([] : Str) = .ok ([], none) := by simp [componentIf]
  cases F with
  | y a =>
    simp only [YMDForm.caps, componentIf_comp hF.1 (isComp_y hF.2), nil, lift_ok, ok_bindM]
    rfl
  | ym a b =>
    simp only [YMDForm.caps, componentIf_comp hF.1.1 (isComp_y hF.1.2), componentIf_comp hF.2.1 (isComp_m hF.2.2),
      nil, lift_ok, ok_bindM]
    rfl
  | ymd a b c =>
    simp only [YMDForm.caps, componentIf_comp hF.1.1 (isComp_y hF.1.2), componentIf_comp hF.2.1.1 (isComp_m hF.2.1.2),
      componentIf_comp hF.2.2.1 (isComp_d hF.2.2.2), lift_ok, ok_bindM]
    rfl

theorem stringRangeM_like {e : Endpoint} (h : e.like) : ∃ ua,
    stringRangeFromYMDM e.text = rangeOfM e.text (sgn e.date.neg e.date.year) e.date.mx e.date.dx ua := by
  have := stringRangeM_form (eformOf_ok h)
  obtain ⟨k1, k2, k3⟩ := eformOf_parts e
  rw [k1, k2, k3, eformOf_text] at this
  exact ⟨_, this⟩

/-! ### The calls -/

theorem splitYM (neg : Bool) {y m : Str} (h1 : ∀ c ∈ y, isDX c = true) (h2 : ∀ c ∈ m, isDX c = true) :
    daysInMonthWithStringM (sgn neg y ++ c! "-" ++ m) =
      (do let a ← atoiM (sgn neg y); let b ← atoiM m; daysInMonthM a b) := by
  have hd : ∀ {w : Str}, (∀ c ∈ w, isDX c = true) → '-' ∉ w := fun h k => absurd (h _ k) (by decide)
  unfold daysInMonthWithStringM
  cases neg with
  | true =>
    rw [show sgn true y ++ c! "-" ++ m = [] ++ '-' :: (y ++ '-' :: m) by simp [sgn], splitChar_append (by simp), splitChar_append (hd h1),
      splitChar_none (hd h2)]
    rfl
  | false =>
    rw [show sgn false y ++ c! "-" ++ m = y ++ '-' :: m by simp [sgn], splitChar_append (hd h1), splitChar_none (hd h2)]
    rfl

/-- The first number that cannot be read is the one complained of. -/
theorem ymdM_year {ys ms ds t : Str} (hy : ys ≠ []) (hm : ms ≠ []) (h : atoiM ys = .says t) : ymdFromStringsM ys ms ds = .says t := by
  unfold ymdFromStringsM
  rw [if_neg hy, if_neg (by simp [hm]), h]
  rfl

theorem ymdM_month {ys ms ds t : Str} {y : Int} (hy : ys ≠ []) (hm : ms ≠ []) (ay : atoiM ys = .ok y) (h : atoiM ms = .says t) :
    ymdFromStringsM ys ms ds = .says t := by
  unfold ymdFromStringsM atoiOrZeroM
  rw [if_neg hy, if_neg (by simp [hm]), ay]
  simp only [ok_bindM, ne_eq, hm, not_false_eq_true, if_true]
  rw [h]
  rfl

theorem ymdM_day {ys ms ds t : Str} {y m : Int} (hy : ys ≠ []) (hm : ms ≠ []) (hd : ds ≠ []) (ay : atoiM ys = .ok y) (am : atoiM ms = .ok m)
    (h : atoiM ds = .says t) : ymdFromStringsM ys ms ds = .says t := by
  unfold ymdFromStringsM atoiOrZeroM
  rw [if_neg hy, if_neg (by simp [hm]), ay]
  simp only [ok_bindM, ne_eq, hm, hd, not_false_eq_true, if_true]
  rw [am]
  simp only [ok_bindM]
  rw [h]
  rfl

theorem atoiM_ok {s : Str} {v : Int} (h : atoi s = some v) : atoiM s = .ok v := by
  unfold atoiM
  rw [h]

theorem ymdM_number {ys ms ds : Str} {y : Int} {m d : Nat} (hys : ys ≠ []) (hms : ms ≠ []) (hds : ds ≠ [])
    (ay : atoi ys = some y) (am : atoi ms = some (m : Int)) (ad : atoi ds = some (d : Int))
    (hy : y.natAbs < 10000) (h1 : 1 ≤ m) (h2 : m ≤ 12) {t : Str} (h : ymdFromStringsM ys ms ds = .says t) : t = c! "Invalid days for month" := by
  have hfl : flipYear y = -y := flipYear_eq (y := y) (by omega) (by omega)
  have hdm : daysInMonthM (if y < 0 then flipYear y else y) m = .ok (monthLen y m : Int) := by
    apply forget_ok.1
    rw [daysInMonthM_forget]
    have e : (if y < 0 then flipYear y else y) = (y.natAbs : Int) := by
      split
      · rw [hfl]; omega
      · omega
    rw [e, daysInMonth_nonneg hy h1 h2, monthLen_natAbs]
  have hle : ¬ (if y < 0 then flipYear y else y) > MAX_YEARS := by
    unfold MAX_YEARS
    split
    · rw [hfl]; omega
    · omega
  unfold ymdFromStringsM atoiOrZeroM at h
  simp only [if_neg hys, hms, false_and, if_false, atoiM_ok ay, atoiM_ok am, atoiM_ok ad, ok_bindM, ne_eq, hds,
    not_false_eq_true, if_true, decide_eq_true_eq] at h
  rw [if_neg hle, if_neg (by omega), if_neg (by omega)] at h
  simp only [if_neg (show ¬ (m : Int) = 0 by omega), hdm, ok_bindM] at h
  split at h
  · injection h with h
    injection h with _ h
    exact h.symm
  · cases h

/-! ### One date -/

theorem sgn_ne_nil {neg : Bool} {w : Str} (h : w ≠ []) : sgn neg w ≠ [] := by
  unfold sgn; split <;> simp [h]

theorem pad2_DX (n : Nat) : ∀ c ∈ pad2 n, isDX c = true := by
  intro c hc
  have := List.all_eq_true.1 (pad2_all n) c hc
  simp [isDX, this]

theorem X_ne_nil {w : Str} (h : 'X' ∈ w) : w ≠ [] := by rintro rfl; cases h

theorem months_DX {w : Str} (hw : w = [] ∨ Lang Rx.monthX w) (p : Prec) :
    (if (monthRange w p).1 = [] then c! "01" else (monthRange w p).1) ≠ [] ∧
    ∀ c ∈ (if (monthRange w p).2.1 = [] then c! "12" else (monthRange w p).2.1), isDX c = true := by
  constructor
  · split
    · decide
    · assumption
  · split
    · decide
    · rcases hw with rfl | hw
      · intro c hc; exact absurd rfl (by assumption)
      · obtain ⟨a, b, rfl, ha, hb⟩ := lang_monthX_DX hw
        unfold monthRange
        split
        · intro c hc
          simp only [List.mem_cons, List.not_mem_nil, or_false] at hc
          rcases hc with rfl | rfl <;> assumption
        · split
          · change ∀ c ∈ c! "12", isDX c = true; decide
          · change ∀ c ∈ c! "12", isDX c = true; decide

theorem dateM_says {s x mx dx t ys ye s1 s2 : Str} {p q : Prec} {ua : Prec × Prec} (hs : stringRangeFromYMDM s = rangeOfM s x mx dx ua)
    (hy : yearRange s x = .ok (ys, ye, p)) (hd : dayRange s dx (monthRange mx p).2.2 = .ok (s1, s2, q)) (h : dateSpanFromYMDM s = .says t) :
    endDayM s2 ye (if (monthRange mx p).2.1 = [] then c! "12" else (monthRange mx p).2.1) = .says t ∨
    ymdFromStringsM ys (if (monthRange mx p).1 = [] then c! "01" else (monthRange mx p).1) (if s1 = [] then c! "01" else s1) = .says t ∨
    ∃ ed v, endDayM s2 ye (if (monthRange mx p).2.1 = [] then c! "12" else (monthRange mx p).2.1) = .ok ed ∧
      ymdFromStringsM ys (if (monthRange mx p).1 = [] then c! "01" else (monthRange mx p).1) (if s1 = [] then c! "01" else s1) = .ok v := by
  have hy' : yearRangeM s x = .ok (ys, ye, p) := forget_ok.1 (by rw [yearRangeM_forget, hy])
  unfold dateSpanFromYMDM at h
  rw [hs] at h
  unfold rangeOfM at h
  rw [hy'] at h
  simp only [ok_bindM] at h
  rw [hd] at h
  simp only [lift_ok, ok_bindM] at h
  rcases bind_says.1 h with h | ⟨r, hr, h⟩
  · rcases bind_says.1 h with h | ⟨ed, -, h⟩
    · exact .inl h
    · cases h
  · generalize endDayM s2 ye _ = o at hr ⊢
    cases o with
    | fault e => cases hr
    | panic => cases hr
    | ok ed =>
      injection hr with hr
      subst hr
      simp only at h
      rcases bind_says.1 h with h | ⟨v, hv, h⟩
      · exact .inr (.inl h)
      · exact .inr (.inr ⟨ed, v, rfl, hv⟩)

/-- Why a date of the right form cannot be read. -/
theorem date_cause {e : Endpoint} (h : e.like) (hy : ∀ a b c, e.date.year = [a, b, c, 'X'] → a ≠ 'X' ∧ e.date.neg = false)
    (hd : e.date.dx ≠ c! "0X") {t : Str} (ht : dateSpanFromYMDM e.text = .says t) : Cause e.date t := by
  obtain ⟨c1, c2, c3⟩ := like_chars h
  obtain ⟨ua, hr⟩ := stringRangeM_like h
  have hl := h.1.1.1
  have lm := like_mx h
  have ld := like_dx h
  have hdr : ∀ p, ∃ r, dayRange e.text e.date.dx p = .ok r := fun p => by
    rcases dayRange_cases e.text p ld with ⟨k, -⟩ | ⟨-, k⟩
    · exact absurd k hd
    · exact k
  have one : ∀ {a b : Str} {α : Type}, (Told.says a : Told α) = .says b → b = a := by
    intro a b α k
    injection k with k
    injection k with _ k
    exact k.symm
  rcases year_sort hl c1 hy with ⟨n1, y1, y2, p, hY⟩ | ⟨hole, hyr⟩
  · obtain ⟨ys, ye, hyr, ny, ny2, a1, a2, ⟨neg, ds, hds, hye⟩, -, k1, k2, -, hp⟩ := year_strs hY
    have hyds : ∀ c ∈ ds, isDX c = true := fun c hc => by simp [isDX, List.all_eq_true.1 hds c hc]
    rcases month_sort lm with ⟨n2, m1, m2, hM⟩ | ⟨hole, hmr⟩
    · rcases day_sort ld hd with ⟨n3, hD⟩ | ⟨hole, hdr⟩
      · obtain ⟨d1, d2, hD⟩ := hD (monthLen y1 m1) (monthLen y2 m2)
        obtain ⟨zs, ze, e1, e2, hro, -, -, b1, b2, -, -, l1, l2, hd1, hd2, -⟩ := rangeOf_span e.text ua hY hM hD
        obtain ⟨q1, q2, q3, -⟩ := month_strs hM (p := Prec.YEAR) (by decide)
        have hrm := forget_ok.1 ((rangeOfM_forget _ _ _ _ _).trans hro)
        have nz : ∀ {w : Str} {v : Int}, atoi w = some v → w ≠ [] := by
          rintro w v k rfl
          cases k
        have ht' := ht
        unfold dateSpanFromYMDM at ht'
        rw [hr, hrm, ok_bindM] at ht'
        have key := ymdM_number (t := t) (nz b1) (pad2_ne_nil m1) (pad2_ne_nil e1) b1 (atoi_pad2 (by omega)) (atoi_pad2 (by omega)) k1 q1 (by omega)
        have key2 := ymdM_number (t := t) (nz b2) (pad2_ne_nil m2) (pad2_ne_nil e2) b2 (atoi_pad2 (by omega)) (atoi_pad2 (by omega)) k2 (by omega) q3
        have goal : t = c! "Invalid days for month" := by
          rcases bind_says.1 ht' with ht' | ⟨v1, hv1, ht'⟩
          · exact key ht'
          rcases bind_says.1 ht' with ht' | ⟨v2, hv2, ht'⟩
          · exact key2 ht'
          exfalso
          have hv1 := (ymdFromStringsM_forget _ _ _).symm.trans (forget_ok.2 hv1)
          have hv2 := (ymdFromStringsM_forget _ _ _).symm.trans (forget_ok.2 hv2)
          rw [ymdFromStrings_eq (nz b1) (pad2_ne_nil m1) (pad2_ne_nil e1) b1 (atoi_pad2 (by omega)) (atoi_pad2 (by omega)) k1 q1 (by omega)] at hv1
          rw [ymdFromStrings_eq (nz b2) (pad2_ne_nil m2) (pad2_ne_nil e2) b2 (atoi_pad2 (by omega)) (atoi_pad2 (by omega)) k2 (by omega) q3] at hv2
          have w1 : e1 ≤ monthLen y1 m1 := by
            by_cases k : e1 ≤ monthLen y1 m1
            · exact k
            · rw [if_neg k] at hv1; cases hv1
          have w2 : e2 ≤ monthLen y2 m2 := by
            by_cases k : e2 ≤ monthLen y2 m2
            · exact k
            · rw [if_neg k] at hv2; cases hv2
          have g1 := monthLen_pos y1 m1
          have g2 := monthLen_pos y2 m2
          have v1 : Valid y1 m1 d1 := by
            refine ⟨q1, by omega, ?_, ?_⟩ <;> rw [hd1] <;> split <;> omega
          have v2 : Valid y2 m2 d2 := by
            refine ⟨by omega, q3, ?_, ?_⟩ <;> rw [hd2] <;> split <;> omega
          obtain ⟨sp, hsp⟩ := (readable_iff h.1).2 ⟨y1, y2, m1, m2, d1, d2, (yearReads_iff hl).2 ⟨_, hY⟩, monthReads_iff.2 hM, dayReads_iff.2 hD, v1, v2⟩
          have := forget_says ht
          rw [dateSpanFromYMDM_forget, hsp] at this
          cases this
        rw [goal]
        exact .calendar n1 n2 n3
      · obtain ⟨-, -, -, hs1, -, -⟩ := month_strs hM hp
        obtain ⟨q, hdr⟩ := hdr e.text (monthRange e.date.mx p).2.2
        have ax := atoiM_X (neg := false) c3 hole.1 (like_lengths h).2.2
        simp only [sgn, Bool.false_eq_true, if_false] at ax
        have nd := X_ne_nil hole.1
        have := dateM_says hr (hyr _) hdr ht
        rw [hs1, if_neg nd, ymdM_day ny (pad2_ne_nil m1) nd (atoiM_ok a1) (atoiM_ok (atoi_pad2 (by
          have := month_strs hM hp; omega))) ax] at this
        unfold endDayM at this
        rw [if_neg nd] at this
        rcases this with k | k | ⟨_, _, _, k⟩
        · cases k
        · rw [one k]
          exact .day n1 n2 hole
        · cases k
    · obtain ⟨qm, hmr⟩ := hmr p
      obtain ⟨⟨s1, s2, q⟩, hdr⟩ := hdr qm
      have ax := atoiM_X (neg := false) c2 hole.1 (like_lengths h).2.1
      simp only [sgn, Bool.false_eq_true, if_false] at ax
      have nm := X_ne_nil hole.1
      have := dateM_says hr (hyr _) (by rw [hmr]; exact hdr) ht
      rw [hmr] at this
      simp only [if_neg nm] at this
      rw [ymdM_month ny nm (atoiM_ok a1) ax] at this
      rcases this with k | k | ⟨_, _, _, k⟩
      · unfold endDayM at k
        split at k
        · rw [hye, splitYM neg hyds c2, ← hye, atoiM_ok a2, ok_bindM, ax] at k
          rw [one k]
          exact .month n1 hole
        · cases k
      · rw [one k]
        exact .month n1 hole
      · cases k
  · have ax := atoiM_X (neg := e.date.neg) c1 hole.1 (like_lengths h).1
    obtain ⟨nm, cm⟩ := months_DX lm Prec.YEAR
    obtain ⟨⟨s1, s2, q⟩, hdr⟩ := hdr (monthRange e.date.mx Prec.YEAR).2.2
    have := dateM_says hr (hyr _) hdr ht
    rw [ymdM_year (sgn_ne_nil (X_ne_nil hole.1)) nm ax] at this
    rcases this with k | k | ⟨_, _, _, k⟩
    · unfold endDayM at k
      split at k
      · rw [splitYM e.date.neg c1 cm, ax] at k
        rw [one k]
        exact .year hole
      · cases k
    · rw [one k]
      exact .year hole
    · cases k

theorem plain_says {α : Type} {x : Told α} (h : x.forget = .err .plain) : ∃ t, x = .says t := by
  cases x with
  | ok a => cases h
  | panic => cases h
  | fault f =>
    obtain ⟨e, t⟩ := f
    injection h with h
    cases h
    exact ⟨t, rfl⟩

theorem cause_unique {x : XDate} {t u : Str} (h : Cause x t) (k : Cause x u) : t = u := by
  cases h <;> cases k <;> first | rfl | contradiction

/-- What the error for a date says. -/
theorem date_says_iff {s t : Str} : dateSpanFromYMDM s = .says t ↔ DateText s t := by
  have neg : ∀ {e : Endpoint}, e.like → e.date.neg = true → ∀ {a b c : Char}, e.date.year = [a, b, c, 'X'] →
      dateSpanFromYMDM e.text = .says (c! "strconv.ParseInt: parsing \"-\": invalid syntax") := by
    intro e h hn a b c hy
    obtain ⟨ua, hr⟩ := stringRangeM_like h
    unfold dateSpanFromYMDM
    rw [hr]
    unfold rangeOfM
    have : yearRangeM e.text (sgn e.date.neg e.date.year) = .says (c! "strconv.ParseInt: parsing \"-\": invalid syntax") := by
      rw [hn, hy]
      unfold yearRangeM
      have hs : hasSuffix (sgn true [a, b, c, 'X']) (c! "X") = true := by rw [hasSuffix_X4]; rfl
      rw [hs]
      rfl
    rw [this]
    rfl
  have back : ∀ {u}, DateText s u → dateSpanFromYMDM s = .says u := by
    intro u h
    cases h with
    | negative e h hn a b c hy => exact neg h hn hy
    | other e h hy hd hr u hu =>
      have k := date_err_iff.2 (DateFails.other e h hy hd hr)
      rw [← dateSpanFromYMDM_forget] at k
      obtain ⟨v, hv⟩ := plain_says k
      rw [hv, cause_unique hu (date_cause h hy hd hv)]
  refine ⟨fun h => ?_, back⟩
  have k := forget_says h
  rw [dateSpanFromYMDM_forget] at k
  generalize hE : Err.plain = E at k
  have k := date_err_iff.1 k
  cases k with
  | form _ _ => cases hE
  | millennium _ _ _ _ _ _ => cases hE
  | zeroX _ _ _ _ => cases hE
  | negative e he hn a b c hy =>
    rw [neg he hn hy] at h
    injection h with h
    injection h with _ h
    rw [← h]
    exact .negative e he hn a b c hy
  | other e he hy hd hr => exact .other e he hy hd hr t (date_cause he hy hd h)

end EDTF
