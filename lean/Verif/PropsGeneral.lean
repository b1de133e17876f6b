/- C10-C14, C30: statements about `ParseString`, `Matches` and `IsValid` on
arbitrary strings. -/
import Verif.PropsDate
import Verif.LemmasErr
namespace EDTF
open Spec

/-! ### C10 -/

/-- C10: a parsed date remembers its source string. -/
theorem C10_source {s : Str} {d : EDTFDate} (h : parseString s = .ok d) : d.string = s := (parse_inv h).1

example : ∃ d, parseString (c! "156X-12-25") = .ok d := ⟨_, rfl⟩

/-! ### C11 -/

/-- C11, first half: Matches agrees with ParseString on level and feature. -/
theorem C11_agree {s : Str} {d : EDTFDate} (h : parseString s = .ok d) (hl : d.level ≠ -1) :
    matchesStr s = .ok (d.level, d.feature) := by
  rcases (parse_inv h).2.2 with ⟨a, -⟩ | ⟨a, -⟩
  · exact absurd a hl
  · exact a

example : ∃ d, parseString (c! "2004-06-~01/2004-06-~20") = .ok d ∧ d.level ≠ -1 ∧ matchesStr (c! "2004-06-~01/2004-06-~20") = .ok (d.level, d.feature) := ⟨_, rfl, by show (2 : Int) ≠ -1; decide, rfl⟩

/-- C11, second half: where Matches reports an error so does ParseString,
except for the open and the unknown date. -/
theorem C11_error {s : Str} {e : Err} (h : matchesStr s = .err e) (h1 : s ≠ c! "..") (h2 : s ≠ []) :
    ∀ d, parseString s ≠ .ok d := by
  intro d hd
  rcases (parse_inv hd).2.2 with ⟨-, a | a⟩ | ⟨a, -⟩
  · exact h1 a
  · exact h2 a
  · rw [a] at h; cases h

example : ∃ e, matchesStr (c! "hello") = .err e ∧ c! "hello" ≠ c! ".." := ⟨_, rfl, by decide⟩

/-- The exception in C11 is necessary. -/
theorem C11_exception : (∃ e, matchesStr (c! "..") = .err e) ∧ (∃ d, parseString (c! "..") = .ok d) :=
  ⟨⟨_, rfl⟩, ⟨_, rfl⟩⟩

example : ∃ d, parseString (c! "2001-34") = .ok d ∧ d.level ≠ -1 := ⟨_, rfl, by decide⟩
example : ∃ e, matchesStr (c! "hello") = .err e := ⟨_, rfl⟩

/-! ### C12 -/

/-- C12: whatever parses is valid. -/
theorem C12_valid {s : Str} {d : EDTFDate} (h : parseString s = .ok d) : isValid s = true := (parse_inv h).2.1

example : ∃ d, parseString (c! "2004-06-~01/2004-06-~20") = .ok d ∧ isValid (c! "2004-06-~01/2004-06-~20") = true := ⟨_, rfl, by decide +kernel⟩

/-! ### C13 -/

/-- C13 does not hold: the level 2 test lacks an end anchor, so a date followed
by anything is valid, yet ParseString reports it as invalid. -/
theorem C13_negation : ∃ (s : Str) (e : Err), isValid s = true ∧ parseString s = .err e ∧ isInvalid e = true :=
  ⟨c! "2004-06-11 or so", _, by decide +kernel, rfl, by decide⟩

theorem date0_errs {x : Date0} (h1 : x.year < 10000) (h2 : Date0.shapeOk x) :
    (dateSpanFromYMD x.text).Errs (· = .plain) := by
  intro e he
  by_cases hx : x.ok
  · have hq : Date0.qOk x .none .none .none := by
      refine ⟨rfl, rfl, rfl, ?_⟩
      obtain ⟨neg, n, t⟩ := x
      cases t <;> simp
    have := dateSpan_date0 hx hq
    rw [show x.text = x.qtext .none .none .none from rfl, this] at he
    cases he
  · obtain ⟨neg, n, t⟩ := x
    cases t with
    | none => exact absurd ⟨h1, trivial⟩ hx
    | month m => exact absurd ⟨h1, h2⟩ hx
    | day m d =>
      obtain ⟨a, b, c, e'⟩ := h2
      have : ¬ d ≤ monthLen (if neg then -(n : Int) else n) m := fun hd => hx ⟨h1, a, b, c, hd⟩
      have k := dateSpan_date0_bad (neg := neg) (n := n) (m := m) (d := d) h1 a b (by omega) e'
        (qy := .none) (qm := .none) (qd := .none) ⟨rfl, rfl, rfl⟩
      rw [show (⟨neg, n, .day m d⟩ : Date0).text = (⟨neg, n, .day m d⟩ : Date0).qtext .none .none .none from rfl, k] at he
      cases he; rfl

open Res in
/-- C13, what holds: a string that is valid at level 0 is never reported as
invalid (its only errors are those for a day or time of day that does not
exist).  Missing: levels 1 and 2, where it fails. -/
theorem C13_level0_partial {s : Str} (h : L0.isLevel0 s = true) :
    isValid s = true ∧ (parseString s).Errs (· = .plain) := by
  refine ⟨by unfold isValid; rw [if_pos h], ?_⟩
  by_cases h1 : L0.isDate s = true
  · rw [parseString_isDate h1, parseDate_eq h1]
    obtain ⟨x, a, b, rfl⟩ := isDate_iff.1 h1
    exact Errs.bind (date0_errs a b) fun _ _ => Errs.ok
  by_cases h3 : L0.isTimeInterval s = true
  · obtain ⟨a, b, ha, hb, rfl⟩ := isTimeInterval_iff.1 h3
    rw [parseTimeInterval_eq ha hb]
    refine Errs.bind (date0_errs ha.1 ha.2) fun l _ => Errs.bind (date0_errs hb.1 hb.2) fun r _ => Errs.bind ?_ fun _ _ => Errs.ok
    unfold joinHalves
    exact Errs.bind Errs.deref fun _ _ => Errs.bind Errs.deref fun _ _ => Errs.bind Errs.deref fun _ _ =>
      Errs.bind Errs.deref fun _ _ => Errs.ok
  · have h2 : L0.isDateAndTime s = true := by
      rw [isLevel0_iff] at h
      simpa [h1, h3] using h
    unfold parseString L0.parseString
    rw [if_pos h, if_neg h1, if_pos h2]
    unfold L0.parseDateAndTime
    have hm : (Rx.DateAndTime.submatch s).isSome = true := by
      rw [isSome_submatch]; exact h2
    cases hs : Rx.DateAndTime.submatch s with
    | none => rw [hs] at hm; cases hm
    | some m =>
      simp only
      split
      · exact Errs.err rfl
      · exact Errs.ok

example : L0.isLevel0 (c! "2021-02-29/2022") = true ∧ parseString (c! "2021-02-29/2022") = .err .plain :=
  ⟨by decide +kernel, rfl⟩

/-! ### C14 -/

/-- C14: "unrecognized" is reported exactly for strings that are not valid. -/
theorem C14_unrecognized (s : Str) :
    (∃ e, parseString s = .err e ∧ isUnrecognized e = true) ↔ isValid s = false := by
  have hd : ∀ e, dateErr e → isUnrecognized e = false := by
    intro e he
    cases e <;> first | rfl | exact absurd he (by simp [dateErr])
  constructor
  · rintro ⟨e, h, he⟩
    cases hv : isValid s with
    | false => rfl
    | true =>
      exfalso
      unfold parseString at h
      unfold isValid at hv
      by_cases h0 : L0.isLevel0 s = true
      · rw [if_pos h0] at h
        rw [hd e (level0_errs s e h)] at he; cases he
      rw [if_neg h0] at h hv
      by_cases h1 : L1.isLevel1 s = true
      · rw [if_pos h1] at h
        rw [hd e (level1_errs s e h)] at he; cases he
      rw [if_neg h1] at h hv
      by_cases h2 : L2.isLevel2 s = true
      · rw [if_pos h2] at h
        rw [hd e (level2_errs s e h)] at he; cases he
      rw [if_neg h2] at h hv
      by_cases h3 : s = OPEN
      · rw [if_pos h3] at h; cases h
      rw [if_neg h3] at h
      by_cases h4 : s = UNKNOWN
      · rw [if_pos h4] at h; cases h
      · simp [h3, h4] at hv
  · intro hv
    unfold isValid at hv
    unfold parseString
    by_cases h0 : L0.isLevel0 s = true
    · rw [if_pos h0] at hv; cases hv
    rw [if_neg h0] at hv ⊢
    by_cases h1 : L1.isLevel1 s = true
    · rw [if_pos h1] at hv; cases hv
    rw [if_neg h1] at hv ⊢
    by_cases h2 : L2.isLevel2 s = true
    · rw [if_pos h2] at hv; cases hv
    rw [if_neg h2] at hv ⊢
    simp only [Bool.or_eq_false_iff, beq_eq_false_iff_ne, ne_eq] at hv
    rw [if_neg hv.1, if_neg hv.2]
    exact ⟨_, rfl, rfl⟩

example : isValid (c! "open") = false := by decide +kernel

/-! ### C30 -/

/-- C30: the open date and the unknown date. -/
theorem C30_open_unknown :
    (∃ d : EDTFDate, parseString (c! "..") = .ok d ∧ d.level = -1 ∧
      d.start.bind (·.lower) = some openEnd ∧ d.start.bind (·.upper) = some openEnd ∧
      d.stop.bind (·.lower) = some openEnd ∧ d.stop.bind (·.upper) = some openEnd ∧
      (∃ e, d.lower = .err e) ∧ (∃ e, d.upper = .err e)) ∧
    (∃ d : EDTFDate, parseString [] = .ok d ∧ d.level = -1 ∧
      d.start.bind (·.lower) = some unknownEnd ∧ d.start.bind (·.upper) = some unknownEnd ∧
      d.stop.bind (·.lower) = some unknownEnd ∧ d.stop.bind (·.upper) = some unknownEnd ∧
      (∃ e, d.lower = .err e) ∧ (∃ e, d.upper = .err e)) :=
  ⟨⟨_, rfl, rfl, rfl, rfl, rfl, rfl, ⟨_, rfl⟩, ⟨_, rfl⟩⟩,
   ⟨_, rfl, rfl, rfl, rfl, rfl, rfl, ⟨_, rfl⟩, ⟨_, rfl⟩⟩⟩

/-- C30, converse: no other string gives a date of level -1. -/
theorem C30_only {s : Str} {d : EDTFDate} (h : parseString s = .ok d) (hl : d.level = -1) : s = c! ".." ∨ s = [] := by
  rcases (parse_inv h).2.2 with ⟨-, a⟩ | ⟨-, a⟩
  · exact a
  · omega

example : ∃ d, parseString (c! "..") = .ok d ∧ d.level = -1 := ⟨_, rfl, rfl⟩

end EDTF
