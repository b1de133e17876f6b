/- C75: the methods Lower, Upper, After and Before of every date. -/
import Verif.SpecMethod
import Verif.PropsCmp
namespace EDTF
open Spec

theorem lower_is (d : EDTFDate) (r : Res Int) : d.lower = r ↔ LowerIs d r := by
  unfold LowerIs EDTFDate.lower
  cases d.start with
  | none =>
    constructor
    · rintro rfl; exact .noRange
    · intro h; cases h; rfl
  | some x =>
    simp only [Res.deref_some, Res.ok_bind]
    cases hl : x.lower with
    | none =>
      constructor
      · rintro rfl; exact .noDate hl
      · intro h
        cases h with
        | noDate => rfl
        | notSet h => rw [hl] at h; cases h
        | found h => rw [hl] at h; cases h
    | some b =>
      simp only [Res.deref_some, Res.ok_bind]
      cases ht : b.timestamp with
      | none =>
        constructor
        · rintro rfl; exact .notSet hl ht
        · intro h
          cases h with
          | noDate h => rw [hl] at h; cases h
          | notSet _ _ => rfl
          | found h k => rw [hl] at h; cases h; rw [ht] at k; cases k
      | some t =>
        constructor
        · rintro rfl; exact .found hl ht
        · intro h
          cases h with
          | noDate h => rw [hl] at h; cases h
          | notSet h k => rw [hl] at h; cases h; rw [ht] at k; cases k
          | found h k => rw [hl] at h; cases h; rw [ht] at k; cases k; rfl

theorem upper_is (d : EDTFDate) (r : Res Int) : d.upper = r ↔ UpperIs d r := by
  have h := lower_is ⟨d.stop.map (fun r => ⟨r.edtf, r.upper, r.lower⟩), none, [], 0, []⟩ r
  have e : (⟨d.stop.map (fun r => ⟨r.edtf, r.upper, r.lower⟩), none, [], 0, []⟩ : EDTFDate).lower = d.upper := by
    unfold EDTFDate.lower EDTFDate.upper
    cases d.stop <;> rfl
  rw [e] at h
  rw [h]
  unfold LowerIs UpperIs
  cases d.stop with
  | none => constructor <;> (intro k; cases k; exact .noRange)
  | some x =>
    constructor
    · intro k
      cases k with
      | noDate h1 => exact .noDate h1
      | notSet h1 t => exact .notSet h1 t
      | found h1 t => exact .found h1 t
    · intro k
      cases k with
      | noDate h1 => exact .noDate h1
      | notSet h1 t => exact .notSet h1 t
      | found h1 t => exact .found h1 t

/-- C75: Lower and Upper of every date. -/
theorem C75_bounds (d : EDTFDate) (r : Res Int) : (d.lower = r ↔ LowerIs d r) ∧ (d.upper = r ↔ UpperIs d r) := ⟨lower_is d r, upper_is d r⟩

theorem internal_iff {t v : Int} (h : -2 ^ 63 ≤ t ∧ t < 2 ^ 63) : InternalTime t v ↔ goSeconds t = v := by
  have e : goSeconds t = if t < 2 ^ 63 - 62135596800 then t + 62135596800 else t + 62135596800 - 2 ^ 64 := by
    unfold goSeconds wrap64
    rw [Int.bmod_def]
    split <;> split <;> omega
  rw [e]
  constructor
  · intro k
    cases k with
    | plain k => rw [if_pos k]
    | around k => rw [if_neg (by omega)]
  · rintro rfl
    by_cases k : t < 2 ^ 63 - 62135596800
    · rw [if_pos k]; exact .plain k
    · rw [if_neg k]; exact .around (by omega)

theorem lower64 {d : EDTFDate} (h : Stamps64 d) {t : Int} (k : LowerIs d (.ok t)) : -2 ^ 63 ≤ t ∧ t < 2 ^ 63 := by
  unfold LowerIs at k
  cases e : d.start with
  | none => rw [e] at k; cases k
  | some r =>
    rw [e] at k
    cases k with
    | found h1 h2 => exact h _ (.inl e) _ (.inl h1) _ h2

theorem upper64 {d : EDTFDate} (h : Stamps64 d) {t : Int} (k : UpperIs d (.ok t)) : -2 ^ 63 ≤ t ∧ t < 2 ^ 63 := by
  unfold UpperIs at k
  cases e : d.stop with
  | none => rw [e] at k; cases k
  | some r =>
    rw [e] at k
    cases k with
    | found h1 h2 => exact h _ (.inr e) _ (.inr h1) _ h2

/-- Both comparisons at once. -/
theorem compares_iff {mine theirs : EDTFDate → Res Int} {Mine Theirs : EDTFDate → Res Int → Prop} {test : Int → Int → Bool} {holds : Int → Int → Prop}
    {op : EDTFDate → EDTFDate → Res Bool}
    (hop : ∀ d u, op d u = if isOpenStr d.edtf then .ok false else
      (wrapErr (theirs u)).bind fun ut => (wrapErr (mine d)).bind fun t => if test (goSeconds ut) (goSeconds t) then .ok false else .ok true)
    (hm : ∀ d r, mine d = r ↔ Mine d r) (ht : ∀ d r, theirs d = r ↔ Theirs d r) (hh : ∀ p q, test q p = true ↔ ¬ holds p q)
    (d u : EDTFDate) (d64 : ∀ t, Mine d (.ok t) → -2 ^ 63 ≤ t ∧ t < 2 ^ 63) (u64 : ∀ t, Theirs u (.ok t) → -2 ^ 63 ≤ t ∧ t < 2 ^ 63) (r : Res Bool) :
    op d u = r ↔ Compares Mine Theirs holds d u r := by
  rw [hop]
  have ho : isOpenStr d.edtf = true ↔ d.edtf = c! ".." ∨ d.edtf = c! "open" := by
    unfold isOpenStr OPEN OPEN_2012
    rw [Bool.or_eq_true, beq_iff_eq, beq_iff_eq]
  by_cases o : d.edtf = c! ".." ∨ d.edtf = c! "open"
  · rw [if_pos (ho.2 o)]
    constructor
    · rintro rfl; exact .opened o
    · intro h
      cases h with
      | opened => rfl
      | theirPanic h => exact absurd o (by rintro (o | o); exact h.1 o; exact h.2 o)
      | theirError h => exact absurd o (by rintro (o | o); exact h.1 o; exact h.2 o)
      | myPanic h => exact absurd o (by rintro (o | o); exact h.1 o; exact h.2 o)
      | myError h => exact absurd o (by rintro (o | o); exact h.1 o; exact h.2 o)
      | yes h => exact absurd o (by rintro (o | o); exact h.1 o; exact h.2 o)
      | no h => exact absurd o (by rintro (o | o); exact h.1 o; exact h.2 o)
  · rw [if_neg (fun k => o (ho.1 k))]
    have o' : d.edtf ≠ c! ".." ∧ d.edtf ≠ c! "open" := ⟨fun k => o (.inl k), fun k => o (.inr k)⟩
    constructor
    · rintro rfl
      cases h1 : theirs u with
      | panic => exact .theirPanic o' ((ht _ _).1 h1)
      | err e => exact .theirError o' ((ht _ _).1 h1)
      | ok q =>
        cases h2 : mine d with
        | panic => exact .myPanic o' ((ht _ _).1 h1) ((hm _ _).1 h2)
        | err e => exact .myError o' ((ht _ _).1 h1) ((hm _ _).1 h2)
        | ok p =>
          rw [ht] at h1; rw [hm] at h2
          have ip := (internal_iff (d64 _ h2)).2 rfl
          have iq := (internal_iff (u64 _ h1)).2 rfl
          simp only [wrapErr, Res.bind]
          cases hb : test (goSeconds q) (goSeconds p) with
          | true => rw [if_pos rfl]; exact .no o' h1 h2 ip iq ((hh _ _).1 hb)
          | false =>
            rw [if_neg (by decide)]
            exact .yes o' h1 h2 ip iq (Classical.byContradiction fun k => by rw [(hh _ _).2 k] at hb; cases hb)
    · intro h
      cases h with
      | opened h => exact absurd h o
      | theirPanic _ k => rw [(ht _ _).2 k]; rfl
      | theirError _ k => rw [(ht _ _).2 k]; rfl
      | myPanic _ k l => rw [(ht _ _).2 k, (hm _ _).2 l]; rfl
      | myError _ k l => rw [(ht _ _).2 k, (hm _ _).2 l]; rfl
      | yes _ k l ip iq hd =>
        rw [internal_iff (d64 _ l)] at ip; rw [internal_iff (u64 _ k)] at iq
        subst ip; subst iq
        rw [(ht _ _).2 k, (hm _ _).2 l]
        simp only [wrapErr, Res.bind]
        rw [if_neg (fun x => (hh _ _).1 x hd)]
      | no _ k l ip iq hd =>
        rw [internal_iff (d64 _ l)] at ip; rw [internal_iff (u64 _ k)] at iq
        subst ip; subst iq
        rw [(ht _ _).2 k, (hm _ _).2 l]
        simp only [wrapErr, Res.bind]
        rw [if_pos ((hh _ _).2 hd)]

/-- C75: After of any two dates. -/
theorem C75_after {d u : EDTFDate} (hd : Stamps64 d) (hu : Stamps64 u) (r : Res Bool) : d.after u = r ↔ AfterIs d u r := by
  refine compares_iff (test := fun q p => decide (q > p)) ?_ lower_is upper_is (fun p q => by rw [decide_eq_true_iff]; omega) d u
    (fun t => lower64 hd) (fun t => upper64 hu) r
  intro d u
  unfold EDTFDate.after
  simp only [decide_eq_true_eq]
  rfl

example : Stamps64 ⟨some ⟨[], some { timestamp := some 5 }, none⟩, some ⟨[], none, some { timestamp := some (-5) }⟩, c! "x", 0, []⟩ := by
  intro r hr b hb t ht
  rcases hr with hr | hr <;> cases hr <;> rcases hb with hb | hb <;> cases hb <;> cases ht <;> decide

/-- C75: Before of any two dates. -/
theorem C75_before {d u : EDTFDate} (hd : Stamps64 d) (hu : Stamps64 u) (r : Res Bool) : d.before u = r ↔ BeforeIs d u r := by
  refine compares_iff (test := fun q p => decide (q < p)) ?_ upper_is lower_is (fun p q => by rw [decide_eq_true_iff]; omega) d u
    (fun t => upper64 hd) (fun t => lower64 hu) r
  intro d u
  unfold EDTFDate.before
  simp only [decide_eq_true_eq]
  rfl

example : (⟨none, some ⟨[], none, some { timestamp := some 3 }⟩, [], 0, []⟩ : EDTFDate).before ⟨some ⟨[], some { timestamp := some 5 }, none⟩, none, [], 0, []⟩ = .ok true := by
  decide +kernel

/-- C75: Equals of two calendar dates. -/
theorem C75_equals (a b : YMD) : a.equals b = true ↔ a = b := by
  obtain ⟨y, m, d⟩ := a
  obtain ⟨y', m', d'⟩ := b
  unfold YMD.equals
  by_cases h1 : y = y' <;> by_cases h2 : m = m' <;> by_cases h3 : d = d' <;> simp [h1, h2, h3]

/-- The zero date has no bounds; a date without timestamps gives the error; the last second of all is
before the Unix epoch. -/
example : (⟨none, none, [], 0, []⟩ : EDTFDate).lower = .panic ∧
    (⟨some ⟨[], none, some {}⟩, some ⟨[], none, some {}⟩, [], 0, []⟩ : EDTFDate).lower = .panic ∧
    (⟨some ⟨[], none, some {}⟩, some ⟨[], none, some {}⟩, [], 0, []⟩ : EDTFDate).upper = .err (.notImplemented [] []) ∧
    (⟨none, none, c! "open", 0, []⟩ : EDTFDate).after ⟨none, none, [], 0, []⟩ = .ok false ∧
    (⟨none, none, [], 0, []⟩ : EDTFDate).after ⟨none, some ⟨[], none, some {}⟩, [], 0, []⟩ = .err (.wrapped (.notImplemented [] [])) ∧
    (⟨some ⟨[], some { timestamp := some (2 ^ 63 - 1) }, none⟩, none, [], 0, []⟩ : EDTFDate).after
      ⟨none, some ⟨[], none, some { timestamp := some 0 }⟩, [], 0, []⟩ = .ok false := by decide +kernel

end EDTF
