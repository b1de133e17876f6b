/- C56: the comparison of a parsed date with what a test expects of it. -/
import Verif.SpecKit
import Verif.PropsWf
namespace EDTF
open Spec

variable {f : Int → Nat → Nat → Int}

theorem hasFlag_iff (a b : Prec) : Prec.hasFlag a b = true ↔ ∃ i : Nat, a.getLsbD i = true ∧ b.getLsbD i = true := by
  unfold Prec.hasFlag
  rw [bne_iff_ne, ne_eq]
  constructor
  · intro h
    apply Classical.byContradiction
    intro k
    apply h
    apply BitVec.eq_of_getLsbD_eq
    intro i _
    rw [BitVec.getLsbD_and]
    cases ha : a.getLsbD i <;> cases hb : b.getLsbD i <;> simp
    exact k ⟨i, ha, hb⟩
  · rintro ⟨i, ha, hb⟩ h
    have : (a &&& b).getLsbD i = true := by rw [BitVec.getLsbD_and, ha, hb]; rfl
    rw [h] at this
    simp at this

theorem testPrecision_iff (a b : Prec) : TestResult.testPrecision a b = .ok () ↔ FlagsMet a b := by
  unfold TestResult.testPrecision FlagsMet
  by_cases h : b = 0
  · simp [h]
  · rw [if_neg h, ← hasFlag_iff]
    cases Prec.hasFlag a b <;> simp [show ¬ b = 0#32 from h]

theorem testBoolean_iff (a b : Bool) : TestResult.testBoolean a b = .ok () ↔ a = b := by
  unfold TestResult.testBoolean
  by_cases h : a = b <;> simp [h]

/-- A check that ends in success or a plain error. -/
def Settled (r : Res Unit) : Prop := r = .ok () ∨ r = .err .plain

theorem seq_ok {a b : Res Unit} : (a >>= fun _ => b) = .ok () ↔ a = .ok () ∧ b = .ok () := by
  cases a <;> simp

theorem seq_settled {a b : Res Unit} (ha : Settled a) (hb : Settled b) : Settled (a >>= fun _ => b) := by
  rcases ha with rfl | rfl
  · exact hb
  · exact Or.inr rfl

theorem testPrecision_settled (a b : Prec) : Settled (TestResult.testPrecision a b) := by
  unfold TestResult.testPrecision Settled
  split
  · exact Or.inl rfl
  · split
    · exact Or.inr rfl
    · exact Or.inl rfl

theorem testBoolean_settled (a b : Bool) : Settled (TestResult.testBoolean a b) := by
  unfold TestResult.testBoolean Settled
  split
  · exact Or.inr rfl
  · exact Or.inl rfl

theorem testUnix_settled (a : Int) (b : Option Int) : Settled (TestResult.testUnix a b) := by
  unfold TestResult.testUnix Settled
  split
  · exact Or.inr rfl
  · split
    · exact Or.inr rfl
    · exact Or.inl rfl

theorem testRFC3339_settled (a : Str) (b : Option Int) : Settled (TestResult.testRFC3339 a b) := by
  unfold TestResult.testRFC3339 Settled
  split
  · exact Or.inr rfl
  · split
    · exact Or.inr rfl
    · exact Or.inl rfl

theorem opt_settled {p : Prop} [Decidable p] {a : Res Unit} (h : Settled a) : Settled (if p then a else .ok ()) := by
  split
  · exact h
  · exact Or.inl rfl

/-- The text of a boundary is the format of its timestamp. -/
theorem boundary_text {b : Date} (h : Boundary U b) {t : Int} (ht : b.timestamp = some t) : b.dateTime = formatRFC3339 t := by
  rcases h with ⟨-, -, y, m, d, hh, mi, ss, V, k1, k2, k3, l1, l2, e, et, -⟩ | ⟨-, -, -, e, -⟩ | ⟨-, -, -, e, -⟩
  · rw [ht] at et
    injection et with et
    have : t = unixDay y m d * 86400 + secOf hh mi ss := by rw [et]; unfold secOf; simp only [U]; omega
    rw [e, this, formatRFC3339_eq (by omega) V k1 k2 k3]
  · rw [ht] at e; cases e
  · rw [ht] at e; cases e

theorem rfc_iff {b : Date} (h : Boundary U b) (x : Str) :
    (if x ≠ [] then TestResult.testRFC3339 x b.timestamp else .ok ()) = .ok () ↔ (x = [] ∨ b.timestamp.isSome = true ∧ b.dateTime = x) := by
  by_cases hx : x = []
  · simp [hx]
  · rw [if_pos hx]
    cases ht : b.timestamp with
    | none => simp [TestResult.testRFC3339, hx]
    | some t =>
      rw [boundary_text h ht]
      simp only [TestResult.testRFC3339, hx, Option.isSome_some, true_and, false_or]
      split <;> simp_all

theorem unix_iff (ts : Option Int) (x : Int) :
    (if x ≠ 0 then TestResult.testUnix x ts else .ok ()) = .ok () ↔ (x = 0 ∨ ts = some x) := by
  by_cases hx : x = 0
  · simp [hx]
  · rw [if_pos hx]
    cases ts with
    | none => simp [TestResult.testUnix, hx]
    | some t =>
      simp only [TestResult.testUnix, hx, false_or, Option.some.injEq]
      split <;> simp_all

theorem all_eq {es ee : Str} {sl su el eu : Date} {d : EDTFDate} (h1 : d.start = some ⟨es, some sl, some su⟩) (h2 : d.stop = some ⟨ee, some el, some eu⟩)
    (r : TestResult) (g : Expect → Res Date → Res Unit) : r.all d g =
      (g r.startLower (.ok sl) >>= fun _ => g r.startUpper (.ok su) >>= fun _ => g r.endLower (.ok el) >>= fun _ => g r.endUpper (.ok eu)) := by
  unfold TestResult.all TestResult.startLowerOf TestResult.startUpperOf TestResult.endLowerOf TestResult.endUpperOf
  rw [h1, h2]
  rfl

/-! ### C56 -/

/-- C56: on a parsed date, `TestDate` passes exactly when each of the four boundaries
meets what is expected of it, and otherwise returns an error; it does not panic. -/
theorem C56_verdict_partial {s : Str} {d : EDTFDate} (h : parseString s = .ok d) (x : TestResult) :
    ∃ (es ee : Str) (sl su el eu : Date), d.start = some ⟨es, some sl, some su⟩ ∧ d.stop = some ⟨ee, some el, some eu⟩ ∧
      (x.testDate d = .ok () ↔ Meets sl x.startLower ∧ Meets su x.startUpper ∧ Meets el x.endLower ∧ Meets eu x.endUpper) ∧
      (x.testDate d = .ok () ∨ x.testDate d = .err .plain) := by
  obtain ⟨es, ee, sl, su, el, eu, h1, h2, b1, b2, b3, b4⟩ := C31_wellformed dayCount_unixDay h
  refine ⟨es, ee, sl, su, el, eu, h1, h2, ?_, ?_⟩
  · unfold TestResult.testDate TestResult.testRFC3339All TestResult.testUnixAll TestResult.testPrecisionAll TestResult.testUncertainAll
      TestResult.testApproximateAll TestResult.testIsOpenAll TestResult.testIsUnknownAll TestResult.testInclusivityAll
    simp only [all_eq h1 h2, Res.ok_bind, seq_ok, testPrecision_iff, testBoolean_iff, rfc_iff b1, rfc_iff b2, rfc_iff b3, rfc_iff b4, unix_iff]
    unfold Meets
    constructor
    · rintro ⟨⟨a1, a2, a3, a4⟩, ⟨c1, c2, c3, c4⟩, ⟨d1, d2, d3, d4⟩, ⟨e1, e2, e3, e4⟩, ⟨f1, f2, f3, f4⟩, ⟨g1, g2, g3, g4⟩, ⟨i1, i2, i3, i4⟩, j1, j2, j3, j4⟩
      exact ⟨⟨a1, c1, d1, e1, f1, g1, i1, j1⟩, ⟨a2, c2, d2, e2, f2, g2, i2, j2⟩, ⟨a3, c3, d3, e3, f3, g3, i3, j3⟩, a4, c4, d4, e4, f4, g4, i4, j4⟩
    · rintro ⟨⟨a1, c1, d1, e1, f1, g1, i1, j1⟩, ⟨a2, c2, d2, e2, f2, g2, i2, j2⟩, ⟨a3, c3, d3, e3, f3, g3, i3, j3⟩, a4, c4, d4, e4, f4, g4, i4, j4⟩
      exact ⟨⟨a1, a2, a3, a4⟩, ⟨c1, c2, c3, c4⟩, ⟨d1, d2, d3, d4⟩, ⟨e1, e2, e3, e4⟩, ⟨f1, f2, f3, f4⟩, ⟨g1, g2, g3, g4⟩, ⟨i1, i2, i3, i4⟩, j1, j2, j3, j4⟩
  · show Settled (x.testDate d)
    unfold TestResult.testDate TestResult.testRFC3339All TestResult.testUnixAll TestResult.testPrecisionAll TestResult.testUncertainAll
      TestResult.testApproximateAll TestResult.testIsOpenAll TestResult.testIsUnknownAll TestResult.testInclusivityAll
    simp only [all_eq h1 h2, Res.ok_bind]
    refine seq_settled ?_ (seq_settled ?_ (seq_settled ?_ (seq_settled ?_ (seq_settled ?_ (seq_settled ?_ (seq_settled ?_ ?_))))))
    · exact seq_settled (opt_settled (testRFC3339_settled _ _)) (seq_settled (opt_settled (testRFC3339_settled _ _))
        (seq_settled (opt_settled (testRFC3339_settled _ _)) (opt_settled (testRFC3339_settled _ _))))
    · exact seq_settled (opt_settled (testUnix_settled _ _)) (seq_settled (opt_settled (testUnix_settled _ _))
        (seq_settled (opt_settled (testUnix_settled _ _)) (opt_settled (testUnix_settled _ _))))
    all_goals first
      | exact seq_settled (testPrecision_settled _ _) (seq_settled (testPrecision_settled _ _)
          (seq_settled (testPrecision_settled _ _) (testPrecision_settled _ _)))
      | exact seq_settled (testBoolean_settled _ _) (seq_settled (testBoolean_settled _ _)
          (seq_settled (testBoolean_settled _ _) (testBoolean_settled _ _)))

theorem flags_self (a : Prec) : FlagsMet a a := by
  by_cases h : a = 0
  · exact Or.inl h
  · refine Or.inr ?_
    apply Classical.byContradiction
    intro k
    apply h
    apply BitVec.eq_of_getLsbD_eq
    intro i _
    cases ha : a.getLsbD i with
    | false => simp
    | true => exact absurd ⟨i, ha, ha⟩ k

theorem meets_self {b : Date} (h : Boundary U b) : Meets b (expectOf b) := by
  refine ⟨?_, ?_, flags_self _, flags_self _, flags_self _, rfl, rfl, flags_self _⟩
  · rcases h with ⟨-, -, y, m, d, hh, mi, ss, V, k1, k2, k3, l1, l2, e, et, -⟩ | ⟨-, -, e, -⟩ | ⟨-, -, e, -⟩
    · exact Or.inr ⟨by rw [et]; rfl, rfl⟩
    · exact Or.inl e
    · exact Or.inl e
  · cases ht : b.timestamp with
    | none => exact Or.inl (by simp [expectOf, ht])
    | some t => exact Or.inr (by simp [expectOf, ht])

/-- C56, the expectation taken from a parsed date itself is met. -/
theorem C56_self {s : Str} {d : EDTFDate} (h : parseString s = .ok d) :
    ∃ (es ee : Str) (sl su el eu : Date), d.start = some ⟨es, some sl, some su⟩ ∧ d.stop = some ⟨ee, some el, some eu⟩ ∧
      (⟨expectOf sl, expectOf su, expectOf el, expectOf eu⟩ : TestResult).testDate d = .ok () := by
  obtain ⟨es, ee, sl, su, el, eu, h1, h2, b1, b2, b3, b4⟩ := C31_wellformed dayCount_unixDay h
  refine ⟨es, ee, sl, su, el, eu, h1, h2, ?_⟩
  obtain ⟨_, _, _, _, _, _, h1', h2', k, -⟩ := C56_verdict_partial h ⟨expectOf sl, expectOf su, expectOf el, expectOf eu⟩
  rw [h1] at h1'
  rw [h2] at h2'
  injection h1' with h1'
  injection h2' with h2'
  cases h1'
  cases h2'
  exact k.2 ⟨meets_self b1, meets_self b2, meets_self b3, meets_self b4⟩

/-- C56 fails as stated: an expectation without flags does not exclude them, one of two
expected flags is enough, and the time 0 (the first second of 1970) is not compared. -/
theorem C56_negation :
    (∃ d, parseString (c! "2004?") = .ok d ∧ (({ startLower := { uncertain := 0 } } : TestResult).testDate d = .ok ())) ∧
    (∃ d, parseString (c! "2004") = .ok d ∧
      (({ startLower := { precision := Prec.YEAR ||| Prec.DAY } } : TestResult).testDate d = .ok ())) ∧
    (∃ d, parseString (c! "2004") = .ok d ∧ d.lower = .ok 1072915200 ∧
      (({ startLower := { timeUnix := 0 } } : TestResult).testDate d = .ok ())) :=
  ⟨⟨_, rfl, rfl⟩, ⟨_, rfl, rfl⟩, ⟨_, rfl, rfl, rfl⟩⟩

/- Beside C56: an expectation with all kinds of fields that is met, and one that is
not (the end is open, the zero value expects that it is not). -/
example : ∃ d, parseString (c! "2004/..") = .ok d ∧
    (⟨{ timeRFC3339 := c! "2004-01-01T00:00:00Z", timeUnix := 1072915200, precision := Prec.YEAR }, { timeRFC3339 := c! "2004-12-31T23:59:59Z" },
      { isOpen := true }, { isOpen := true }⟩ : TestResult).testDate d = .ok () := ⟨_, rfl, rfl⟩
example : ∃ d, parseString (c! "2004/..") = .ok d ∧ (({} : TestResult).testDate d = .err .plain) := ⟨_, rfl, rfl⟩

end EDTF
