/-
Property C83: what the comparison of a date with what a test expects of it comes to and
what its error says, also for dates whose pointers are not all set.
-/
import Verif.MessageKit
import Verif.PropsKit
import Verif.PropsMessageCmp
namespace EDTF
open Spec Told
variable {f : Int → Nat → Nat → Int}

/-! ### The twins -/

theorem testRFC3339M_forget (x : Str) (ts : Option Int) : (TestResult.testRFC3339M x ts).forget = TestResult.testRFC3339 x ts := by
  unfold TestResult.testRFC3339M TestResult.testRFC3339
  cases ts with
  | none => rfl
  | some t => exact forget_ite _ _ _

theorem testUnixM_forget (x : Int) (ts : Option Int) : (TestResult.testUnixM x ts).forget = TestResult.testUnix x ts := by
  unfold TestResult.testUnixM TestResult.testUnix
  cases ts with
  | none => rfl
  | some t => exact forget_ite _ _ _

theorem testPrecisionM_forget (a b : Prec) : (TestResult.testPrecisionM a b).forget = TestResult.testPrecision a b := by
  unfold TestResult.testPrecisionM TestResult.testPrecision
  simp only [forget_ite]
  rfl

theorem testBooleanM_forget (a b : Bool) : (TestResult.testBooleanM a b).forget = TestResult.testBoolean a b := by
  unfold TestResult.testBooleanM TestResult.testBoolean
  simp only [forget_ite]
  rfl

/-- Errors that are all plain are not changed by formatting them again. -/
theorem formatErr_plain {α : Type} {x : Res α} (h : ∀ e, x = .err e → e = .plain) : formatErr x = x := by
  cases x with
  | err e => rw [h e rfl]; rfl
  | ok _ => rfl
  | panic => rfl

theorem allM_forget (r : TestResult) (d : EDTFDate) (b a : Str) (g : Expect → Told Date → Told Unit) (h : Expect → Res Date → Res Unit)
    (hg : ∀ x v, (g x v).forget = h x v.forget) (hp : ∀ x v e, (∀ e', v ≠ .err e') → h x v = .err e → e = .plain) :
    (r.allM d b a g).forget = r.all d h := by
  have k : ∀ (x : Expect) (v : Res Date), (∀ e', v ≠ .err e') → ∀ t, ((g x (.lift v)).format t).forget = h x v := by
    intro x v hv t
    rw [forget_format, hg, forget_lift]
    exact formatErr_plain (fun e he => hp x v e hv he)
  have n : ∀ (α β : Type) (o : Option α) (q : α → Option β) e, (Res.deref o >>= fun r => Res.deref (q r)) ≠ .err e := by
    intro α β o q e
    cases o with
    | none => simp [Res.deref]
    | some r => cases hq : q r <;> simp [Res.deref, hq]
  unfold TestResult.allM TestResult.all
  simp only [forget_bind]
  rw [k _ (TestResult.startLowerOf d) (n _ _ _ _), k _ (TestResult.startUpperOf d) (n _ _ _ _), k _ (TestResult.endLowerOf d) (n _ _ _ _),
    k _ (TestResult.endUpperOf d) (n _ _ _ _)]

theorem plain_of_settled {r : Res Unit} (h : Settled r) {e : Err} (he : r = .err e) : e = .plain := by
  rcases h with h | h
  · rw [h] at he; cases he
  · rw [h] at he; injection he with he; exact he.symm

theorem flagM_forget (r : TestResult) (d : EDTFDate) (b a : Str) (got : Date → Prec) (want : Expect → Prec) :
    (r.allM d b a (fun x v => v >>= fun v => TestResult.testPrecisionM (got v) (want x))).forget =
      r.all d (fun x v => v >>= fun v => TestResult.testPrecision (got v) (want x)) := by
  refine allM_forget r d b a _ _ ?_ ?_
  · intro x v; simp only [forget_bind, testPrecisionM_forget]
  · intro x v e hv he
    cases v with
    | ok v => exact plain_of_settled (testPrecision_settled _ _) he
    | err e' => exact absurd rfl (hv e')
    | panic => cases he

theorem markM_forget (r : TestResult) (d : EDTFDate) (b a : Str) (got : Date → Bool) (want : Expect → Bool) :
    (r.allM d b a (fun x v => v >>= fun v => TestResult.testBooleanM (got v) (want x))).forget =
      r.all d (fun x v => v >>= fun v => TestResult.testBoolean (got v) (want x)) := by
  refine allM_forget r d b a _ _ ?_ ?_
  · intro x v; simp only [forget_bind, testBooleanM_forget]
  · intro x v e hv he
    cases v with
    | ok v => exact plain_of_settled (testBoolean_settled _ _) he
    | err e' => exact absurd rfl (hv e')
    | panic => cases he

theorem testRFC3339AllM_forget (r : TestResult) (d : EDTFDate) : (r.testRFC3339AllM d).forget = r.testRFC3339All d := by
  refine allM_forget r d _ _ _ _ ?_ ?_
  · intro x v; simp only [forget_ite, forget_bind, testRFC3339M_forget]; rfl
  · intro x v e hv he
    cases v with
    | ok v => exact plain_of_settled (opt_settled (testRFC3339_settled _ _)) he
    | err e' => exact absurd rfl (hv e')
    | panic => split at he <;> cases he

theorem testUnixAllM_forget (r : TestResult) (d : EDTFDate) : (r.testUnixAllM d).forget = r.testUnixAll d := by
  refine allM_forget r d _ _ _ _ ?_ ?_
  · intro x v; simp only [forget_ite, forget_bind, testUnixM_forget]; rfl
  · intro x v e hv he
    cases v with
    | ok v => exact plain_of_settled (opt_settled (testUnix_settled _ _)) he
    | err e' => exact absurd rfl (hv e')
    | panic => split at he <;> cases he

/-- C83: with the texts dropped, the comparison with texts is the comparison. -/
theorem C83_forget (x : TestResult) (d : EDTFDate) : (x.testDateM d).forget = x.testDate d := by
  unfold TestResult.testDateM TestResult.testDate
  simp only [forget_bind, testRFC3339AllM_forget, testUnixAllM_forget]
  unfold TestResult.testPrecisionAllM TestResult.testUncertainAllM TestResult.testApproximateAllM TestResult.testIsOpenAllM
    TestResult.testIsUnknownAllM TestResult.testInclusivityAllM
  rw [flagM_forget, flagM_forget, flagM_forget, flagM_forget, markM_forget, markM_forget]
  rfl

/-! ### The first thing that is wrong -/

/-- An outcome is that of the first thing in a list that is wrong. -/
def Settles (l : Wrongs) (r : Told Unit) : Prop := First (.ok ()) l r ∧ ∀ p ∈ l, p.2 ≠ .ok ()

theorem first_ok {l : Wrongs} (hl : ∀ p ∈ l, p.2 ≠ .ok ()) {l' : Wrongs} {r : Told Unit} (h : First (.ok ()) l (.ok ())) (h' : First (.ok ()) l' r) :
    First (.ok ()) (l ++ l') r := by
  induction l with
  | nil => exact h'
  | cons p l ih =>
    obtain ⟨p, a⟩ := p
    cases h with
    | here hp => exact absurd rfl (hl _ (List.mem_cons_self ..))
    | next hp k => exact .next hp (ih (fun q hq => hl q (List.mem_cons_of_mem _ hq)) k)

theorem first_wrong {l : Wrongs} {l' : Wrongs} {r : Told Unit} (hr : r ≠ .ok ()) (h : First (.ok ()) l r) : First (.ok ()) (l ++ l') r := by
  induction l with
  | nil => cases h; exact absurd rfl hr
  | cons p l ih =>
    obtain ⟨p, a⟩ := p
    cases h with
    | here hp => exact .here hp
    | next hp k => exact .next hp (ih k)

theorem settles_seq {l l' : Wrongs} {a b : Told Unit} (ha : Settles l a) (hb : Settles l' b) : Settles (l ++ l') (a >>= fun _ => b) := by
  refine ⟨?_, ?_⟩
  · cases a with
    | ok u => exact first_ok ha.2 ha.1 hb.1
    | fault e => exact first_wrong (by simp) ha.1
    | panic => exact first_wrong (by simp) ha.1
  · intro p hp
    rcases List.mem_append.1 hp with hp | hp
    · exact ha.2 p hp
    · exact hb.2 p hp

theorem settles_one {p : Prop} [Decidable p] {a : Told Unit} (ha : a ≠ .ok ()) : Settles [(p, a)] (if p then a else .ok ()) := by
  refine ⟨?_, by simpa using ha⟩
  split
  · exact .here ‹_›
  · exact .next ‹_› .none

/-- A boundary, or the panic of a missing pointer. -/
def orPanic : Option Date → Told Date
  | some b => .ok b
  | none => .panic

theorem deref_orPanic {α : Type} (o : Option α) (q : α → Option Date) : Told.lift (Res.deref o >>= fun r => Res.deref (q r)) = orPanic (o.bind q) := by
  cases o with
  | none => rfl
  | some r => cases hq : q r <;> simp [Res.deref, hq, orPanic, Told.lift]

theorem allM_settles {x : TestResult} {d : EDTFDate} {b a : Str} {g : Expect → Told Date → Told Unit} {kind : Str × Expect × Option Date → Wrongs}
    (h : ∀ p ∈ sides d x, Settles (kind p) ((g p.2.1 (orPanic p.2.2)).format (b ++ p.1 ++ a))) :
    Settles ((sides d x).flatMap kind) (x.allM d b a g) := by
  have e : (sides d x).flatMap kind = kind (c! "StartLower", x.startLower, d.start.bind (·.lower)) ++
      (kind (c! "StartUpper", x.startUpper, d.start.bind (·.upper)) ++ (kind (c! "EndLower", x.endLower, d.stop.bind (·.lower)) ++
        kind (c! "EndUpper", x.endUpper, d.stop.bind (·.upper)))) := by
    simp [sides]
  rw [e]
  unfold TestResult.allM
  have k1 := h _ (by simp only [sides]; exact List.mem_cons_self ..)
  have k2 := h _ (by simp only [sides]; exact List.mem_cons_of_mem _ (List.mem_cons_self ..))
  have k3 := h _ (by simp only [sides]; exact List.mem_cons_of_mem _ (List.mem_cons_of_mem _ (List.mem_cons_self ..)))
  have k4 := h _ (by simp only [sides]; exact List.mem_cons_of_mem _ (List.mem_cons_of_mem _ (List.mem_cons_of_mem _ (List.mem_cons_self ..))))
  rw [← deref_orPanic] at k1 k2 k3 k4
  exact settles_seq k1 (settles_seq k2 (settles_seq k3 k4))

theorem flag_settles (n a : Str) (got : Date → Prec) (want : Expect → Prec) (x : Expect) (o : Option Date) :
    Settles (flagWrongs a got want (n, x, o))
      (((fun (x : Expect) (v : Told Date) => v >>= fun v => TestResult.testPrecisionM (got v) (want x)) x (orPanic o)).format
        (c! "Invalid " ++ n ++ (a ++ c! " flag, "))) := by
  cases o with
  | none => exact ⟨.here trivial, by simp [flagWrongs]⟩
  | some v =>
    refine ⟨?_, by simp [flagWrongs]⟩
    simp only [flagWrongs, orPanic]
    show First _ _ ((TestResult.testPrecisionM (got v) (want x)).format _)
    have hi := testPrecision_iff (got v) (want x)
    rw [← testPrecisionM_forget] at hi
    by_cases hf : FlagsMet (got v) (want x)
    · have := hi.2 hf
      cases hm : TestResult.testPrecisionM (got v) (want x) with
      | ok u => exact .next (fun h => h hf) .none
      | fault e => rw [hm] at this; cases this
      | panic => rw [hm] at this; cases this
    · have ht : TestResult.testPrecisionM (got v) (want x) = .says (c! "Missing flag " ++ itoa (want x).toNat) := by
        unfold TestResult.testPrecisionM at hi ⊢
        split
        · rename_i h0; exact absurd (Or.inl h0) hf
        · split
          · rfl
          · rename_i h0 h1
            rw [if_neg h0, if_neg h1] at hi
            exact absurd (hi.1 rfl) hf
      rw [ht]
      have : Nat.toDigits 10 (want x).toNat = itoa (want x).toNat := (itoa_digits _).symm
      rw [this]
      have e : (Told.says (c! "Missing flag " ++ itoa (want x).toNat) : Told Unit).format (c! "Invalid " ++ n ++ (a ++ c! " flag, ")) =
          .says (c! "Invalid " ++ n ++ a ++ c! " flag, Missing flag " ++ itoa (want x).toNat) := by
        simp [Told.format]
      rw [e]
      exact .here hf

theorem mark_settles (n a : Str) (got : Date → Bool) (want : Expect → Bool) (x : Expect) (o : Option Date) :
    Settles (markWrongs a got want (n, x, o))
      (((fun (x : Expect) (v : Told Date) => v >>= fun v => TestResult.testBooleanM (got v) (want x)) x (orPanic o)).format
        (c! "Invalid " ++ n ++ (a ++ c! " flag, "))) := by
  cases o with
  | none => exact ⟨.here trivial, by simp [markWrongs]⟩
  | some v =>
    refine ⟨?_, by simp [markWrongs]⟩
    simp only [markWrongs, orPanic]
    show First _ _ ((TestResult.testBooleanM (got v) (want x)).format _)
    have e : ∀ t : Str, (Told.says t : Told Unit).format (c! "Invalid " ++ n ++ (a ++ c! " flag, ")) = .says (c! "Invalid " ++ n ++ a ++ c! " flag, " ++ t) := by
      intro t; simp [Told.format]
    unfold TestResult.testBooleanM
    cases hg : got v <;> cases hw : want x
    · exact .next (by simp) (.next (by simp) .none)
    · rw [if_pos (by decide), e]
      have := First.here (d := (.ok () : Told Unit)) (p := true = true ∧ false = false) (a := Told.says (c! "Invalid " ++ n ++ a ++ c! " flag, " ++
        (c! "Boolean test failed, expected '" ++ TestResult.boolText true ++ c! "' but got '" ++ TestResult.boolText false ++ c! "'")))
        (l := [(true = false ∧ false = true, .says (c! "Invalid " ++ n ++ a ++ c! " flag, Boolean test failed, expected 'false' but got 'true'"))]) ⟨rfl, rfl⟩
      simpa [TestResult.boolText] using this
    · rw [if_pos (by decide), e]
      have := First.here (d := (.ok () : Told Unit)) (p := false = false ∧ true = true) (a := Told.says (c! "Invalid " ++ n ++ a ++ c! " flag, " ++
        (c! "Boolean test failed, expected '" ++ TestResult.boolText false ++ c! "' but got '" ++ TestResult.boolText true ++ c! "'")))
        (l := []) ⟨rfl, rfl⟩
      refine .next (by simp) ?_
      simpa [TestResult.boolText] using this
    · exact .next (by simp) (.next (by simp) .none)

theorem rfc_settles (n : Str) (x : Expect) (o : Option Date) (ho : ∀ b, o = some b → Boundary U b) :
    Settles (textWrongs (n, x, o))
      (((fun (x : Expect) (b : Told Date) => if x.timeRFC3339 ≠ [] then b >>= fun b => TestResult.testRFC3339M x.timeRFC3339 b.timestamp else .ok ())
        x (orPanic o)).format (c! "Failed " ++ n ++ c! "TimeRFC3339 test, ")) := by
  cases o with
  | none =>
    refine ⟨?_, by simp [textWrongs]⟩
    simp only [textWrongs, orPanic]
    split
    · exact .here ‹_›
    · exact .next ‹_› .none
  | some v =>
    refine ⟨?_, by simp [textWrongs]⟩
    simp only [textWrongs, orPanic]
    split
    · rename_i h
      show First _ _ ((TestResult.testRFC3339M x.timeRFC3339 v.timestamp).format _)
      unfold TestResult.testRFC3339M
      cases ht : v.timestamp with
      | none =>
        have := First.here (d := (.ok () : Told Unit)) (p := x.timeRFC3339 ≠ [] ∧ (none : Option Int) = none) (a := Told.format (c! "Failed " ++ n ++ c! "TimeRFC3339 test, ") (Told.says (c! "Missing edtf.Timestamp instance")))
          (l := [(x.timeRFC3339 ≠ [] ∧ v.dateTime ≠ x.timeRFC3339, .says (c! "Failed " ++ n ++ c! "TimeRFC3339 test, Invalid RFC3339 time, expected '" ++
            x.timeRFC3339 ++ c! "' but got '" ++ v.dateTime ++ c! "'"))]) ⟨h, rfl⟩
        simpa [Told.format] using this
      | some t =>
        refine .next (fun k => by cases k.2) ?_
        dsimp only
        rw [← boundary_text (ho v rfl) ht]
        by_cases hd : v.dateTime = x.timeRFC3339
        · rw [if_neg (fun k => k hd)]
          exact .next (fun k => k.2 hd) .none
        · rw [if_pos hd]
          have := First.here (d := (.ok () : Told Unit)) (p := x.timeRFC3339 ≠ [] ∧ v.dateTime ≠ x.timeRFC3339) (a := Told.format (c! "Failed " ++ n ++ c! "TimeRFC3339 test, ")
            (Told.says (c! "Invalid RFC3339 time, expected '" ++ x.timeRFC3339 ++ c! "' but got '" ++ v.dateTime ++ c! "'"))) (l := []) ⟨h, hd⟩
          simpa [Told.format] using this
    · rename_i h
      exact .next (fun k => h k.1) (.next (fun k => h k.1) .none)

theorem unix_settles (n : Str) (x : Expect) (o : Option Date) :
    Settles (timeWrongs (n, x, o))
      (((fun (x : Expect) (b : Told Date) => if x.timeUnix ≠ 0 then b >>= fun b => TestResult.testUnixM x.timeUnix b.timestamp else .ok ())
        x (orPanic o)).format (c! "Failed " ++ n ++ c! "TimeUnix test, ")) := by
  cases o with
  | none =>
    refine ⟨?_, by simp [timeWrongs]⟩
    simp only [timeWrongs, orPanic]
    split
    · exact .here ‹_›
    · exact .next ‹_› .none
  | some v =>
    simp only [timeWrongs, orPanic]
    cases ht : v.timestamp with
    | none =>
      refine ⟨?_, by simp⟩
      by_cases h : x.timeUnix ≠ 0
      · rw [if_pos h]
        show First _ _ ((TestResult.testUnixM x.timeUnix v.timestamp).format _)
        rw [ht]
        have := First.here (d := (.ok () : Told Unit)) (p := x.timeUnix ≠ 0) (a := Told.format (c! "Failed " ++ n ++ c! "TimeUnix test, ") (TestResult.testUnixM x.timeUnix none)) (l := []) h
        simpa [Told.format, TestResult.testUnixM] using this
      · rw [if_neg h]; exact .next h .none
    | some t =>
      refine ⟨?_, by simp⟩
      by_cases h : x.timeUnix ≠ 0
      · rw [if_pos h]
        show First _ _ ((TestResult.testUnixM x.timeUnix v.timestamp).format _)
        rw [ht]
        unfold TestResult.testUnixM
        by_cases hd : t = x.timeUnix
        · dsimp only
          rw [if_neg (fun k => k hd)]
          exact .next (fun k => k.2 hd) .none
        · dsimp only
          rw [if_pos hd, itoa_json, itoa_json]
          have := First.here (d := (.ok () : Told Unit)) (p := x.timeUnix ≠ 0 ∧ t ≠ x.timeUnix) (a := Told.format (c! "Failed " ++ n ++ c! "TimeUnix test, ")
            (Told.says (c! "Invalid Unix time, expected '" ++ jsonInt x.timeUnix ++ c! "' but got '" ++ jsonInt t ++ c! "'"))) (l := []) ⟨h, hd⟩
          simpa [Told.format] using this
      · rw [if_neg h]; exact .next (fun k => h k.1) .none

theorem flagAll_settles (x : TestResult) (d : EDTFDate) (a : Str) (got : Date → Prec) (want : Expect → Prec) :
    Settles ((sides d x).flatMap (flagWrongs a got want))
      (x.allM d (c! "Invalid ") (a ++ c! " flag, ") (fun x v => v >>= fun v => TestResult.testPrecisionM (got v) (want x))) :=
  allM_settles (fun p _ => flag_settles p.1 a got want p.2.1 p.2.2)

theorem markAll_settles (x : TestResult) (d : EDTFDate) (a : Str) (got : Date → Bool) (want : Expect → Bool) :
    Settles ((sides d x).flatMap (markWrongs a got want))
      (x.allM d (c! "Invalid ") (a ++ c! " flag, ") (fun x v => v >>= fun v => TestResult.testBooleanM (got v) (want x))) :=
  allM_settles (fun p _ => mark_settles p.1 a got want p.2.1 p.2.2)

theorem sides_made {d : EDTFDate} (h : Made U d) {x : TestResult} {p : Str × Expect × Option Date} (hp : p ∈ sides d x) (b : Date) (hb : p.2.2 = some b) :
    Boundary U b := by
  simp only [sides, List.mem_cons, List.not_mem_nil, or_false] at hp
  rcases hp with rfl | rfl | rfl | rfl
  · obtain ⟨r, h1, h2⟩ := Option.bind_eq_some_iff.1 hb
    exact h r b (Or.inl h1) (Or.inl h2)
  · obtain ⟨r, h1, h2⟩ := Option.bind_eq_some_iff.1 hb
    exact h r b (Or.inl h1) (Or.inr h2)
  · obtain ⟨r, h1, h2⟩ := Option.bind_eq_some_iff.1 hb
    exact h r b (Or.inr h1) (Or.inl h2)
  · obtain ⟨r, h1, h2⟩ := Option.bind_eq_some_iff.1 hb
    exact h r b (Or.inr h1) (Or.inr h2)

theorem boundary_U (hf : DayCount f) {b : Date} (h : Boundary f b) : Boundary U b := by
  rcases h with ⟨h1, h2, y, m, d, hh, mi, ss, V, k1, k2, k3, l1, l2, e, et, k⟩ | h | h
  · refine Or.inl ⟨h1, h2, y, m, d, hh, mi, ss, V, k1, k2, k3, l1, l2, e, ?_, k⟩
    rw [et, dayCount_eq hf V]
  · exact Or.inr (Or.inl h)
  · exact Or.inr (Or.inr h)

/-! ### C83 -/

theorem testDateM_settles {d : EDTFDate} (h : Made U d) (x : TestResult) : Settles (wrongs d x) (x.testDateM d) := by
  have e : wrongs d x = (sides d x).flatMap textWrongs ++ ((sides d x).flatMap timeWrongs ++
      ((sides d x).flatMap (flagWrongs (c! "Precision") (·.precision) (·.precision)) ++
      ((sides d x).flatMap (flagWrongs (c! "Uncertain") (·.uncertain) (·.uncertain)) ++
      ((sides d x).flatMap (flagWrongs (c! "Approximate") (·.approximate) (·.approximate)) ++
      ((sides d x).flatMap (markWrongs (c! "IsOpen") (·.isOpen) (·.isOpen)) ++
      ((sides d x).flatMap (markWrongs (c! "IsUnknown") (·.unknown) (·.isUnknown)) ++
      (sides d x).flatMap (flagWrongs (c! "Inclusivity") (·.inclusivity) (·.inclusivity)))))))) := by
    simp only [wrongs, List.flatMap_cons, List.flatMap_nil, List.append_nil]
  rw [e]
  unfold TestResult.testDateM
  refine settles_seq (allM_settles fun p hp => rfc_settles p.1 p.2.1 p.2.2 (sides_made h hp)) ?_
  refine settles_seq (allM_settles fun p _ => unix_settles p.1 p.2.1 p.2.2) ?_
  refine settles_seq (flagAll_settles x d (c! "Precision") (·.precision) (·.precision)) ?_
  refine settles_seq (flagAll_settles x d (c! "Uncertain") (·.uncertain) (·.uncertain)) ?_
  refine settles_seq (flagAll_settles x d (c! "Approximate") (·.approximate) (·.approximate)) ?_
  refine settles_seq (markAll_settles x d (c! "IsOpen") (·.isOpen) (·.isOpen)) ?_
  refine settles_seq (markAll_settles x d (c! "IsUnknown") (·.unknown) (·.isUnknown)) ?_
  exact flagAll_settles x d (c! "Inclusivity") (·.inclusivity) (·.inclusivity)

/-- C83: the outcome, with the text of the error, is that of the first thing that is wrong.
The date need not have all its boundaries. -/
theorem C83_outcome (hf : DayCount f) {d : EDTFDate} (h : Made f d) (x : TestResult) (r : Told Unit) :
    x.testDateM d = r ↔ First (.ok ()) (wrongs d x) r := by
  have hU : Made U d := fun q b h1 h2 => boundary_U hf (h q b h1 h2)
  have k := (testDateM_settles hU x).1
  constructor
  · rintro rfl; exact k
  · exact first_unique k

/- Beside `C83_outcome`: the year 2004, with all boundaries and without the later ones, and
what the comparison says of it. -/
def sample2004 : EDTFDate :=
  ⟨some ⟨c! "2004", some (dayStart U 2004 1 1 0 0 Prec.YEAR), some (dayEnd U 2004 1 1 0 0 Prec.YEAR)⟩, none, c! "2004", 0, c! "Date"⟩
example : Made U sample2004 := by
  have k : ∀ q, (∃ hh mi ss, hh < 24 ∧ mi < 60 ∧ ss < 60 ∧ q = dated U 2004 1 1 hh mi ss 0 0 Prec.YEAR) → Boundary U q := by
    rintro q ⟨hh, mi, ss, h1, h2, h3, rfl⟩
    exact Or.inl ⟨rfl, rfl, 2004, 1, 1, hh, mi, ss, by decide, h1, h2, h3, by decide, by decide, rfl, rfl, Or.inr rfl⟩
  intro r b hr hb
  rcases hr with hr | hr
  · cases hr
    rcases hb with hb | hb
    · cases hb; exact k _ ⟨0, 0, 0, by decide, by decide, by decide, rfl⟩
    · cases hb; exact k _ ⟨23, 59, 59, by decide, by decide, by decide, rfl⟩
  · cases hr
example : ({ startLower := { precision := Prec.MONTH ||| Prec.DAY } } : TestResult).testDateM sample2004 =
    .says (c! "Invalid StartLowerPrecision flag, Missing flag 40") := by decide +kernel
example : ({ endLower := { timeUnix := 5 }, startUpper := { timeRFC3339 := c! "2004" } } : TestResult).testDateM sample2004 =
    .says (c! "Failed StartUpperTimeRFC3339 test, Invalid RFC3339 time, expected '2004' but got '2004-01-01T23:59:59Z'") := by decide +kernel
example : ({} : TestResult).testDateM sample2004 = .panic := by decide +kernel

/-- C83, parsed dates: they have all their boundaries, as the parser makes them. -/
theorem C83_parsed (hf : DayCount f) {s : Str} {d : EDTFDate} (h : parseString s = .ok d) (x : TestResult) (r : Told Unit) :
    x.testDateM d = r ↔ First (.ok ()) (wrongs d x) r := by
  obtain ⟨es, ee, sl, su, el, eu, h1, h2, b1, b2, b3, b4⟩ := C31_wellformed hf h
  refine C83_outcome hf ?_ x r
  intro q b hq hb
  rcases hq with hq | hq
  · rw [h1] at hq; cases hq
    rcases hb with hb | hb <;> cases hb
    · exact b1
    · exact b2
  · rw [h2] at hq; cases hq
    rcases hb with hb | hb <;> cases hb
    · exact b3
    · exact b4

example : ∃ d, parseString (c! "2004/..") = .ok d ∧
    ({ endLower := { isOpen := true } } : TestResult).testDateM d =
      .says (c! "Invalid EndUpperIsOpen flag, Boolean test failed, expected 'false' but got 'true'") := ⟨_, rfl, by decide +kernel⟩
example : ∃ d, parseString (c! "2004/..") = .ok d ∧
    ({ endLower := { timeUnix := -1 }, startLower := { timeUnix := 1072915200 } } : TestResult).testDateM d =
      .says (c! "Failed EndLowerTimeUnix test, Missing edtf.Timestamp instance") := ⟨_, rfl, by decide +kernel⟩

/-- C83, a date with a missing boundary never passes: the comparison panics or an error
comes first. -/
theorem C83_missing {d : EDTFDate} (hd : d.start.bind (·.lower) = none ∨ d.start.bind (·.upper) = none ∨ d.stop.bind (·.lower) = none ∨ d.stop.bind (·.upper) = none)
    (x : TestResult) : x.testDateM d ≠ .ok () := by
  intro h
  have e : (x.testDateM d).forget = .ok () := by rw [h]; rfl
  rw [C83_forget] at e
  unfold TestResult.testDate at e
  have e3 := (seq_ok.1 (seq_ok.1 (seq_ok.1 e).2).2).1
  unfold TestResult.testPrecisionAll TestResult.all at e3
  obtain ⟨a1, e3⟩ := seq_ok.1 e3
  obtain ⟨a2, e3⟩ := seq_ok.1 e3
  obtain ⟨a3, a4⟩ := seq_ok.1 e3
  have k : ∀ {α : Type} (o : Option α) (q : α → Option Date) (g : Date → Res Unit),
      ((Res.deref o >>= fun r => Res.deref (q r)) >>= g) = .ok () → o.bind q ≠ none := by
    intro α o q g hg
    cases o with
    | none => cases hg
    | some r =>
      cases hq : q r with
      | none => simp [Res.deref, hq] at hg
      | some b => simp [hq]
  rcases hd with hd | hd | hd | hd
  · exact k _ _ _ a1 hd
  · exact k _ _ _ a2 hd
  · exact k _ _ _ a3 hd
  · exact k _ _ _ a4 hd

example : sample2004.stop.bind (·.upper) = none := rfl

end EDTF
