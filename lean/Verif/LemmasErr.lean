/- Which errors can arise where; where panics can arise. -/
import Verif.LemmasInv
namespace EDTF
open Spec

/-- Every error of `x` satisfies `P`. -/
def Res.Errs {α : Type} (P : Err → Prop) (x : Res α) : Prop := ∀ e, x = .err e → P e

namespace Res
variable {α β : Type} {P : Err → Prop}

theorem Errs.ok {a : α} : (Res.ok a).Errs P := fun _ h => by cases h
theorem Errs.panic : (Res.panic : Res α).Errs P := fun _ h => by cases h
theorem Errs.err {e : Err} (h : P e) : (Res.err e : Res α).Errs P := fun _ h' => by cases h'; exact h
theorem Errs.bind {x : Res α} {f : α → Res β} (hx : x.Errs P) (hf : ∀ a, x = .ok a → (f a).Errs P) :
    (x >>= f).Errs P := by
  intro e h
  rcases bind_eq_err.1 h with h | ⟨a, h1, h2⟩
  · exact hx e h
  · exact hf a h1 e h2
theorem Errs.ite {c : Prop} [Decidable c] {x y : Res α} (hx : c → x.Errs P) (hy : ¬ c → y.Errs P) :
    (if c then x else y).Errs P := by
  by_cases h : c
  · rw [if_pos h]; exact hx h
  · rw [if_neg h]; exact hy h
theorem Errs.ofOption {o : Option α} (h : P .plain) : (Res.ofOption o).Errs P := by
  cases o
  · exact Errs.err h
  · exact Errs.ok
theorem Errs.deref {o : Option α} : (Res.deref o).Errs P := by
  cases o
  · exact Errs.panic
  · exact Errs.ok
theorem Errs.mono {Q : Err → Prop} {x : Res α} (h : x.Errs P) (hpq : ∀ e, P e → Q e) : x.Errs Q :=
  fun e he => hpq e (h e he)
end Res

/-- Errors that the shared date code can return. -/
def dateErr : Err → Prop
  | .plain => True
  | .invalid _ _ => True
  | .notImplemented _ _ => True
  | .unsupported _ _ => True
  | _ => False

open Res in
theorem daysInMonth_errs (y m : Int) : (daysInMonth y m).Errs (· = .plain) := by
  unfold daysInMonth
  simp only
  split
  · exact Errs.err rfl
  · exact Errs.ok

open Res in
theorem daysInMonthWithString_errs (s : Str) : (daysInMonthWithString s).Errs (· = .plain) := by
  unfold daysInMonthWithString
  simp only
  split
  · exact Errs.bind (Errs.ofOption rfl) fun _ _ => Errs.bind (Errs.ofOption rfl) fun _ _ => daysInMonth_errs _ _
  · exact Errs.bind (Errs.ofOption rfl) fun _ _ => Errs.bind (Errs.ofOption rfl) fun _ _ => daysInMonth_errs _ _
  · exact Errs.err rfl

open Res in
theorem ymdFromStrings_errs (a b c : Str) :
    (ymdFromStrings a b c).Errs (fun e => e = .plain ∨ ∃ y, e = Unsupported (c! "year") y) := by
  unfold ymdFromStrings
  refine Errs.ite (fun _ => Errs.err (.inl rfl)) fun _ => Errs.ite (fun _ => Errs.err (.inl rfl)) fun _ => ?_
  refine Errs.bind (Errs.ofOption (.inl rfl)) fun y _ => ?_
  have hz : ∀ s, (atoiOrZero s).Errs (fun e => e = .plain ∨ ∃ y, e = Unsupported (c! "year") y) := by
    intro s
    unfold atoiOrZero
    exact Errs.ite (fun _ => Errs.ofOption (.inl rfl)) fun _ => Errs.ok
  refine Errs.bind (hz _) fun m _ => Errs.bind (hz _) fun d _ => ?_
  refine Errs.ite (fun _ => Errs.err (.inr ⟨_, rfl⟩)) fun _ => Errs.ite (fun _ => Errs.err (.inl rfl)) fun _ =>
    Errs.ite (fun _ => Errs.err (.inl rfl)) fun _ => ?_
  refine Errs.bind ((daysInMonth_errs _ _).mono fun _ h => .inl h) fun days _ => ?_
  exact Errs.ite (fun _ => Errs.err (.inl rfl)) fun _ => Errs.ok

open Res in
theorem timeWithYMD_errs (v : YMD) (h : Str) : (timeWithYMD v h).Errs (· = .plain) := by
  unfold timeWithYMD
  simp only
  split
  · exact Errs.err rfl
  · exact Errs.ok

open Res in
theorem componentIf_errs (s : Str) : (componentIf s).Errs dateErr := by
  unfold componentIf
  refine Errs.ite (fun _ => ?_) fun _ => Errs.ok
  unfold parseYMDComponent
  split
  · exact Errs.ok
  · split
    · exact Errs.ok
    · exact Errs.err trivial

open Res in
theorem idx_errs {P : Err → Prop} (s : Str) (i : Nat) : (idx s i).Errs P := by
  unfold idx; split
  · exact Errs.ok
  · exact Errs.panic

open Res in
theorem yearDigit_errs (c : Char) (k : Int) (p h : Prec) : (yearDigit c k p h).Errs dateErr := by
  unfold yearDigit
  exact Errs.ite (fun _ => Errs.bind (Errs.ofOption trivial) fun _ _ => Errs.ok) fun _ => Errs.ok

open Res in
theorem yearRange_errs (s y : Str) : (yearRange s y).Errs dateErr := by
  unfold yearRange
  refine Errs.ite (fun _ => Errs.ok) fun _ => Errs.bind (idx_errs _ _) fun _ _ =>
    Errs.ite (fun _ => Errs.err trivial) fun _ => ?_
  refine Errs.bind (Errs.ofOption trivial) fun _ _ => Errs.bind (idx_errs _ _) fun _ _ =>
    Errs.bind (yearDigit_errs _ _ _ _) fun _ _ => Errs.bind (idx_errs _ _) fun _ _ =>
    Errs.bind (yearDigit_errs _ _ _ _) fun _ _ => Errs.bind (idx_errs _ _) fun _ _ =>
    Errs.bind (yearDigit_errs _ _ _ _) fun _ _ => Errs.ok

open Res in
theorem dayRange_errs (s y : Str) (p : Prec) : (dayRange s y p).Errs dateErr := by
  unfold dayRange
  refine Errs.ite (fun _ => Errs.ok) fun _ => Errs.bind (idx_errs _ _) fun _ _ => ?_
  exact Errs.ite (fun _ => Errs.ok) fun _ => Errs.ite (fun _ => Errs.ok) fun _ =>
    Errs.ite (fun _ => Errs.ok) fun _ => Errs.ite (fun _ => Errs.ok) fun _ => Errs.err trivial

theorem plain_dateErr {e : Err} (h : e = .plain) : dateErr e := by subst h; trivial
theorem ymd_dateErr {e : Err} (h : e = .plain ∨ ∃ y, e = Unsupported (c! "year") y) : dateErr e := by
  rcases h with rfl | ⟨y, rfl⟩ <;> trivial

open Res in
theorem stringRange_errs (s : Str) : (stringRangeFromYMD s).Errs dateErr := by
  unfold stringRangeFromYMD
  split
  · exact Errs.err trivial
  · refine Errs.bind (componentIf_errs _) fun _ _ => Errs.bind (componentIf_errs _) fun _ _ =>
      Errs.bind (componentIf_errs _) fun _ _ => Errs.bind (yearRange_errs _ _) fun _ _ =>
      Errs.bind (dayRange_errs _ _ _) fun _ _ => Errs.bind ?_ fun _ _ => Errs.ok
    unfold endDay
    exact Errs.ite (fun _ => Errs.bind ((daysInMonthWithString_errs _).mono fun _ => plain_dateErr) fun _ _ => Errs.ok)
      fun _ => Errs.ok

open Res in
theorem spanTimes_errs (b : Bool) (v w : YMD) : (spanTimes b v w).Errs dateErr := by
  have h : ∀ v h, (timeWithYMD v h).Errs dateErr := fun v h => (timeWithYMD_errs v h).mono fun _ => plain_dateErr
  unfold spanTimes
  refine Errs.ite (fun _ => ?_) fun _ => ?_
  · exact Errs.bind (h _ _) fun _ _ => Errs.bind (h _ _) fun _ _ => Errs.ok
  · exact Errs.bind (h _ _) fun _ _ => Errs.bind (h _ _) fun _ _ => Errs.bind (h _ _) fun _ _ =>
      Errs.bind (h _ _) fun _ _ => Errs.ok

open Res in
theorem dateSpanFromYMD_errs (s : Str) : (dateSpanFromYMD s).Errs dateErr := by
  unfold dateSpanFromYMD
  exact Errs.bind (stringRange_errs _) fun _ _ =>
    Errs.bind ((ymdFromStrings_errs _ _ _).mono fun _ => ymd_dateErr) fun _ _ =>
    Errs.bind ((ymdFromStrings_errs _ _ _).mono fun _ => ymd_dateErr) fun _ _ =>
    Errs.bind (spanTimes_errs _ _ _) fun _ _ => Errs.ok

open Res in
theorem halfSpan_errs (s : Str) : (halfSpan s).Errs dateErr := by
  unfold halfSpan
  exact Errs.ite (fun _ => Errs.ok) fun _ => Errs.ite (fun _ => Errs.ok) fun _ => dateSpanFromYMD_errs _

open Res in
theorem dateSpanFromEDTF_errs (s : Str) : (dateSpanFromEDTF s).Errs dateErr := by
  unfold dateSpanFromEDTF
  split
  · refine Errs.bind (halfSpan_errs _) fun _ _ => Errs.bind (halfSpan_errs _) fun _ _ => ?_
    unfold joinHalves
    exact Errs.bind Errs.deref fun _ _ => Errs.bind Errs.deref fun _ _ => Errs.bind Errs.deref fun _ _ =>
      Errs.bind Errs.deref fun _ _ => Errs.ok
  · exact dateSpanFromYMD_errs _
  · exact Errs.err trivial

open Res in
theorem span_errs (s : Str) (t : Str) (l : Int) (ft : Str) :
    (dateSpanFromEDTF s >>= fun sp => Res.ok (mkEDTF sp t l ft)).Errs dateErr :=
  Errs.bind (dateSpanFromEDTF_errs s) fun _ _ => Errs.ok

open Res in
theorem guard_errs (b : Bool) {e : Err} (he : dateErr e) (s : Str) (t : Str) (l : Int) (ft : Str) :
    (if !b then Res.err e else (dateSpanFromEDTF s >>= fun sp => Res.ok (mkEDTF sp t l ft))).Errs dateErr :=
  Errs.ite (fun _ => Errs.err he) fun _ => span_errs _ _ _ _

open Res in
theorem level0_errs (s : Str) : (L0.parseString s).Errs dateErr := by
  unfold L0.parseString
  refine Errs.ite (fun _ => guard_errs _ (by trivial) _ _ _ _) fun _ => Errs.ite (fun _ => ?_) fun _ =>
    Errs.ite (fun _ => guard_errs _ (by trivial) _ _ _ _) fun _ => Errs.err trivial
  unfold L0.parseDateAndTime
  split
  · exact Errs.err trivial
  · split
    · exact Errs.err trivial
    · exact Errs.ok

open Res in
theorem seasonSpan_errs (s : Str) (m : Nat → Str) : (L1.seasonSpan s m).Errs dateErr := by
  unfold L1.seasonSpan L1.seasonOfText L1.seasonOfNum
  refine Errs.ite (fun _ => Errs.bind (Errs.ofOption trivial) fun _ _ => ?_) fun _ =>
    Errs.bind (Errs.ofOption trivial) fun _ _ => Errs.bind (Errs.ofOption trivial) fun _ _ => ?_
  · exact Errs.ite (fun _ => Errs.ok) fun _ => Errs.ite (fun _ => Errs.ok) fun _ => Errs.ite (fun _ => Errs.ok)
      fun _ => Errs.ite (fun _ => Errs.ok) fun _ => Errs.err trivial
  · exact Errs.ite (fun _ => Errs.ok) fun _ => Errs.ite (fun _ => Errs.ok) fun _ => Errs.ite (fun _ => Errs.ok)
      fun _ => Errs.ite (fun _ => Errs.ok) fun _ => Errs.ok

open Res in
theorem level1_errs (s : Str) : (L1.parseString s).Errs dateErr := by
  unfold L1.parseString
  refine Errs.ite (fun _ => ?_) fun _ => Errs.ite (fun _ => ?_) fun _ =>
    Errs.ite (fun _ => guard_errs _ (by trivial) _ _ _ _) fun _ =>
    Errs.ite (fun _ => guard_errs _ (by trivial) _ _ _ _) fun _ =>
    Errs.ite (fun _ => guard_errs _ (by trivial) _ _ _ _) fun _ =>
    Errs.ite (fun _ => ?_) fun _ => Errs.err trivial
  · unfold L1.parseLetterPrefixedCalendarYear
    split
    · exact Errs.err trivial
    · exact Errs.ite (fun _ => Errs.err trivial) fun _ => span_errs _ _ _ _
  · unfold L1.parseSeason
    split
    · exact Errs.err trivial
    · exact Errs.bind (seasonSpan_errs _ _) fun _ _ =>
        Errs.bind ((daysInMonth_errs _ _).mono fun _ => plain_dateErr) fun _ _ => span_errs _ _ _ _
  · unfold L1.parseExtendedInterval
    exact Errs.ite (fun _ => guard_errs _ (by trivial) _ _ _ _) fun _ =>
      Errs.ite (fun _ => guard_errs _ (by trivial) _ _ _ _) fun _ => Errs.err trivial

open Res in
theorem exponential_errs (n : Str) : (parseExponentialNotation n).Errs dateErr := by
  unfold parseExponentialNotation
  simp only
  split
  · exact Errs.err trivial
  · refine Errs.ite (fun _ => Errs.err trivial) fun _ => Errs.bind (Errs.ofOption trivial) fun e _ => ?_
    split
    · exact Errs.err trivial
    · exact Errs.panic
    · exact Errs.ite (fun _ => Errs.err trivial) fun _ => Errs.ok

open Res in
theorem collectMembers_errs (s : Str) (l : List Str) (acc : L2.SetMembers) :
    (L2.collectMembers s l acc).Errs dateErr := by
  induction l generalizing acc with
  | nil => exact Errs.ok
  | cons x xs ih =>
    unfold L2.collectMembers
    split
    · exact ih _
    · exact Errs.ite (fun _ => ih _) fun _ => Errs.ite (fun _ => ih _) fun _ => ih _
    · exact Errs.err trivial

open Res in
theorem setSpan_errs (l : List Str) (a b : Bool) (p : Prec) : (L2.setSpan l a b p).Errs dateErr := by
  unfold L2.setSpan
  have hi : ∀ b r, (L2.setInclusivityIf b r p).Errs dateErr := by
    intro b r
    unfold L2.setInclusivityIf L2.setInclusivity
    exact Errs.ite (fun _ => Errs.bind Errs.deref fun _ _ => Errs.bind Errs.deref fun _ _ =>
      Errs.bind Errs.deref fun _ _ => Errs.ok) fun _ => Errs.ok
  simp only
  refine Errs.bind (dateSpanFromEDTF_errs _) fun _ _ => Errs.bind ?_ fun _ _ =>
    Errs.bind (hi _ _) fun _ _ => Errs.bind (hi _ _) fun _ _ => Errs.ok
  unfold L2.openPostFactoIf L2.openPostFacto
  exact Errs.ite (fun _ => Errs.bind Errs.deref fun _ _ => Errs.bind Errs.deref fun _ _ =>
    Errs.ite (fun _ => Errs.ok) fun _ => Errs.ok) fun _ => Errs.ok

open Res in
theorem level2_errs (s : Str) : (L2.parseString s).Errs dateErr := by
  unfold L2.parseString
  refine Errs.ite (fun _ => ?_) fun _ => Errs.ite (fun _ => ?_) fun _ =>
    Errs.ite (fun _ => ?_) fun _ => Errs.ite (fun _ => ?_) fun _ =>
    Errs.ite (fun _ => guard_errs _ (by trivial) _ _ _ _) fun _ =>
    Errs.ite (fun _ => guard_errs _ (by trivial) _ _ _ _) fun _ =>
    Errs.ite (fun _ => guard_errs _ (by trivial) _ _ _ _) fun _ =>
    Errs.ite (fun _ => guard_errs _ (by trivial) _ _ _ _) fun _ => Errs.err trivial
  · unfold L2.parseExponentialYear
    split
    · exact Errs.err trivial
    · exact Errs.bind (exponential_errs _) fun _ _ => span_errs _ _ _ _
  · unfold L2.parseSignificantDigits
    split
    · exact Errs.err trivial
    · refine Errs.bind ?_ fun _ _ => Errs.ite (fun _ => Errs.err trivial) fun _ => ?_
      · unfold L2.sigYear
        refine Errs.ite (fun _ => ?_) fun _ => Errs.ite (fun _ => Errs.ite (fun _ => Errs.err trivial) fun _ => ?_)
          fun _ => Errs.ite (fun _ => exponential_errs _) fun _ => Errs.err trivial
        · split
          · exact Errs.ok
          · exact Errs.err trivial
        · split
          · exact Errs.ok
          · exact Errs.err trivial
      · split
        · exact Errs.err trivial
        · refine Errs.ite (fun _ => Errs.err trivial) fun _ => Errs.bind ?_ fun _ _ => span_errs _ _ _ _
          unfold L2.sigString
          exact Errs.ite (fun _ => Errs.panic) fun _ => Errs.ite (fun _ => Errs.ok) fun _ => Errs.ok
  · unfold L2.parseSubYearGroupings
    split
    · exact Errs.err trivial
    · simp only
      split
      · exact Errs.err trivial
      · refine Errs.bind ?_ fun _ _ => span_errs _ _ _ _
        unfold L2.groupingEndYear
        exact Errs.ite (fun _ => Errs.bind (Errs.ofOption trivial) fun _ _ => Errs.ok) fun _ => Errs.ok
  · unfold L2.parseSetRepresentations
    split
    · exact Errs.err trivial
    · refine Errs.bind ?_ fun _ _ => Errs.bind (collectMembers_errs _ _ _) fun _ _ =>
        Errs.ite (fun _ => Errs.err trivial) fun _ => Errs.bind (setSpan_errs _ _ _ _) fun _ _ => Errs.ok
      unfold L2.setKind
      exact Errs.ite (fun _ => Errs.ok) fun _ => Errs.ite (fun _ => Errs.ok) fun _ => Errs.err trivial

end EDTF
