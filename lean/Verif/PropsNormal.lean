/- C103: the moments in a result can be read back, and every time has a normal form. -/
import Verif.SpecNormal
import Verif.PropsWhole
import Verif.LemmasSame
namespace EDTF
open Spec

variable {f : Int → Nat → Nat → Int}

/-! ### The texts of moments -/

theorem boundary_of (hf : DayCount f) {s : Str} {d : EDTFDate} (h : parseString s = .ok d) {b : Date} (hb : BoundaryOf d b) : Boundary f b := by
  obtain ⟨es, ee, sl, su, el, eu, h1, h2, b1, b2, b3, b4⟩ := C31_wellformed hf h
  obtain ⟨r, k, k'⟩ := hb
  rw [h1, h2] at k
  rcases k with k | k <;> cases k <;> rcases k' with k' | k' <;> cases k' <;> assumption

theorem begins_boundary {d : EDTFDate} {b : Date} (h : Begins d b) : BoundaryOf d b := by
  obtain ⟨S, h1, h2⟩ := h; exact ⟨S, .inl h1, .inl h2⟩

theorem finishes_boundary {d : EDTFDate} {b : Date} (h : Finishes d b) : BoundaryOf d b := by
  obtain ⟨S, h1, h2⟩ := h; exact ⟨S, .inr h1, .inr h2⟩

theorem rfc_ne {y : Int} {m d hh mi ss : Nat} : rfcText y m d hh mi ss ≠ [] := by
  intro h
  have := congrArg List.length h
  simp [rfcText] at this

/-- A boundary has a text exactly if it has a second. -/
theorem text_second {b : Date} (h : Boundary f b) : b.dateTime ≠ [] ↔ ∃ i, b.timestamp = some i := by
  rcases h with ⟨-, -, y, m, d, hh, mi, ss, -, -, -, -, -, -, e1, e2, -⟩ | ⟨-, -, e1, e2, -⟩ | ⟨-, -, e1, e2, -⟩
  · rw [e1, e2]; exact ⟨fun _ => ⟨_, rfl⟩, fun _ => rfc_ne⟩
  · rw [e1, e2]; exact ⟨fun k => absurd rfl k, fun ⟨_, k⟩ => by cases k⟩
  · rw [e1, e2]; exact ⟨fun k => absurd rfl k, fun ⟨_, k⟩ => by cases k⟩

/-- The text is determined by the second. -/
theorem equal_text (hf : DayCount f) {b c : Date} (hb : Boundary f b) (hc : Boundary f c) (h : b.timestamp = c.timestamp) : b.dateTime = c.dateTime := by
  rcases hb with ⟨-, -, y, m, d, hh, mi, ss, V, g1, g2, g3, -, -, e1, e2, -⟩ | ⟨-, -, e1, e2, -⟩ | ⟨-, -, e1, e2, -⟩ <;>
    rcases hc with ⟨-, -, y', m', d', hh', mi', ss', V', g1', g2', g3', -, -, e1', e2', -⟩ | ⟨-, -, e1', e2', -⟩ | ⟨-, -, e1', e2', -⟩ <;>
    rw [e2, e2'] at h <;> first | (cases h; done) | skip
  · injection h with h
    obtain ⟨rfl, rfl, rfl, rfl, rfl, rfl⟩ := C31_determined hf V V' g1 g2 g3 g1' g2' g3' h
    rw [e1, e1']
  all_goals rw [e1, e1']

/-- A year within the range is written with a sign and four digits. -/
theorem rfc_text {y : Int} {m d hh mi ss : Nat} (h1 : -9999 ≤ y) (h2 : y ≤ 9999) :
    rfcText y m d hh mi ss = (⟨decide (y < 0), y.natAbs, .day m d⟩ : Date0).text ++ 'T' :: (hmsText hh mi ss ++ c! "Z") := by
  rw [date0_text]
  unfold rfcText yearText yearDigits yearStr sgn
  rw [if_pos (show y.natAbs < 10000 by omega)]
  by_cases h : y < 0 <;> simp [h]

theorem value_of (y : Int) (t : Tail) : (⟨decide (y < 0), y.natAbs, t⟩ : Date0).value = y := by
  unfold Date0.value
  simp only [decide_eq_true_eq]
  split <;> omega

theorem day_ok {y : Int} {m d : Nat} (V : Valid y m d) (h1 : -9999 ≤ y) (h2 : y ≤ 9999) : (⟨decide (y < 0), y.natAbs, .day m d⟩ : Date0).ok := by
  refine ⟨by show y.natAbs < 10000; omega, ?_⟩
  show Valid (Date0.value ⟨decide (y < 0), y.natAbs, .day m d⟩) m d
  rw [value_of]; exact V

/-- The seconds of a day are within the years exactly if its year is. -/
theorem in_years (hf : DayCount f) {y : Int} {m d k : Nat} (V : Valid y m d) (hk : k < 86400) :
    InYears f (86400 * f y m d + (k : Nat)) ↔ -9999 ≤ y ∧ y ≤ 9999 := by
  obtain ⟨v1, v2, v3, v4⟩ := id V
  unfold InYears
  constructor
  · rintro ⟨h1, h2⟩
    constructor
    · apply Int.not_lt.1
      intro k
      have := day_lt hf V (show Valid (-9999) 1 1 by decide) (.inl (by omega))
      omega
    · apply Int.not_lt.1
      intro k
      have := day_order hf (show Valid 10000 1 1 by decide) V (by unfold dayLe; omega)
      omega
  · rintro ⟨h1, h2⟩
    have b1 := day_order hf (show Valid (-9999) 1 1 by decide) V (by unfold dayLe; omega)
    have b2 := day_lt hf V (show Valid 10000 1 1 by decide) (.inl (by omega))
    omega

theorem rfc_colon {y : Int} {m d hh mi ss : Nat} : ':' ∈ rfcText y m d hh mi ss := by
  unfold rfcText hmsText
  simp

theorem colon_at {s : Str} {d : EDTFDate} (h : parseString s = .ok d) (hc : ':' ∈ s) : ∃ i, At s i := by
  rcases denotes_lit ((C55_denotes (f := U) dayCount_unixDay s d).1 h) with ⟨-, k0, i, k⟩ | ⟨k, -⟩
  · obtain ⟨k1, k2⟩ := timed_lower k
    exact ⟨i, d, h, k0, k1, k2⟩
  · exact absurd hc k

/-- A year of five digits is not read. -/
theorem rfc_rejected {y : Int} {m d hh mi ss : Nat} (hy : y < -9999 ∨ 9999 < y) (h1 : -10000 ≤ y) (h2 : y ≤ 10000) (r : EDTFDate) :
    parseString (rfcText y m d hh mi ss) ≠ .ok r := by
  intro h
  obtain ⟨i, hi⟩ := colon_at h rfc_colon
  obtain ⟨neg, y', m', d', hh', mi', ss', z, -, -, -, -, -, -, e⟩ := at_text (f := U) dayCount_unixDay hi
  have hd : ∀ n : Nat, dig (n % 10) ≠ '-' := fun n => dig_mod_ne n (by decide)
  rcases hy with hy | hy
  · obtain rfl : y = -10000 := by omega
    unfold rfcText clockText yearText yearDigits at e
    cases neg
    · injection e with e _
      exact hd _ e.symm
    · rw [if_pos (by decide), if_neg (by decide)] at e
      simp only [if_true, List.cons_append, List.append_assoc, List.nil_append, pad4] at e
      injection e with _ e
      injection e with _ e; injection e with _ e; injection e with _ e; injection e with _ e
      injection e with e _
      exact absurd e (by decide)
  · obtain rfl : y = 10000 := by omega
    unfold rfcText clockText yearText yearDigits at e
    rw [if_neg (by decide), if_neg (by decide)] at e
    cases neg
    · simp only [Bool.false_eq_true, if_false, List.cons_append, List.append_assoc, List.nil_append, pad4] at e
      injection e with _ e; injection e with _ e; injection e with _ e; injection e with _ e
      injection e with e _
      exact absurd e (by decide)
    · injection e with e _
      exact absurd e (by decide)

/-- **C103**: every moment named in a result can be read back: its text is understood, as that second,
unless the second is not of the years -9999 to 9999; then the text is not understood. -/
theorem C103_moment (hf : DayCount f) {s : Str} {d : EDTFDate} (h : parseString s = .ok d) {b : Date} (hb : BoundaryOf d b) :
    (b.dateTime ≠ [] ↔ ∃ i, b.timestamp = some i) ∧
    ∀ i, b.timestamp = some i → (InYears f i → At b.dateTime i ∧ Zulu b.dateTime) ∧
      (¬ InYears f i → ':' ∈ s ∧ ∀ r, parseString b.dateTime ≠ .ok r) := by
  have B := boundary_of hf h hb
  refine ⟨text_second B, fun i hi => ?_⟩
  rcases B with ⟨-, -, y, m, dd, hh, mi, ss, V, g1, g2, g3, g4, g5, e1, e2, -⟩ | ⟨-, -, e1, e2, -⟩ | ⟨-, -, e1, e2, -⟩
  · rw [e2] at hi
    injection hi with hi
    have iy := in_years hf (k := 3600 * hh + 60 * mi + ss) V (by omega)
    rw [hi] at iy
    constructor
    · intro k
      obtain ⟨k1, k2⟩ := iy.1 k
      rw [e1, rfc_text k1 k2]
      refine (zulu_iff hf).2 ⟨_, _, _, _, _, _, _, day_ok V k1 k2, g1, g2, g3, rfl, ?_⟩
      rw [value_of]; omega
    · intro k
      have ny : y < -9999 ∨ 9999 < y := by
        apply Decidable.byContradiction
        intro n
        exact k (iy.2 (by omega))
      refine ⟨?_, fun r => by rw [e1]; exact rfc_rejected ny g4 g5 r⟩
      apply Decidable.byContradiction
      intro hc
      rcases parse_shape h with hA | ⟨y', m', d', hh', mi', ss', _, _, _, _, _, _, e⟩
      · obtain ⟨n1, n2, al, au, bl, bu, q1, q2, p1, p2, p3, p4⟩ := hA
        have pb : Bd b := by
          obtain ⟨r, k, k'⟩ := hb
          rw [q1, q2] at k
          rcases k with k | k <;> cases k <;> rcases k' with k' | k' <;> cases k' <;> assumption
        rcases pb with ⟨y2, m2, d2, hh2, mi2, ss2, u2, a2, p2, i2, V2, hy2, w1, w2, w3, rfl⟩ | ⟨i2, rfl⟩ | ⟨i2, rfl⟩
        · injection e2 with e2
          rw [show U y2 m2 d2 = f y2 m2 d2 from (dayCount_eq hf V2).symm] at e2
          obtain ⟨rfl, -⟩ := C31_determined hf V2 V w1 w2 w3 g1 g2 g3 e2
          omega
        · cases e2
        · cases e2
      · have t1 : d.feature = c! "Date and Time" := by rw [e]; rfl
        have t2 : d.lower = .ok (86400 * U y' m' d' + (3600 * hh' + 60 * mi' + ss' : Nat)) := by rw [e]; rfl
        have t3 : d.upper = .ok (86400 * U y' m' d' + (3600 * hh' + 60 * mi' + ss' : Nat)) := by rw [e]; rfl
        obtain ⟨neg, _, _, _, _, _, _, z, -, -, -, -, -, -, e⟩ := at_text (f := U) dayCount_unixDay ⟨d, h, t1, t2, t3⟩
        apply hc
        rw [e]
        unfold clockText hmsText
        simp
  · rw [e2] at hi; cases hi
  · rw [e2] at hi; cases hi

example : ¬ InYears U 253402304399 ∧ Spans (c! "9999-12-31T23:59:59-01") 253402304399 253402304399 :=
  ⟨by unfold InYears; decide, _, rfl, by decide +kernel, by decide +kernel⟩

theorem pad2_split {a b : Nat} {s t : Str} (ha : a < 100) (hb : b < 100) (h : pad2 a ++ s = pad2 b ++ t) : a = b ∧ s = t := by
  obtain ⟨h1, h2⟩ := List.append_inj h rfl
  exact ⟨pad2_inj ha hb h1, h2⟩

theorem rest_inj {m d hh mi ss m' d' hh' mi' ss' : Nat} (h1 : m < 100) (h2 : d < 100) (h3 : hh < 100) (h4 : mi < 100) (h5 : ss < 100)
    (k1 : m' < 100) (k2 : d' < 100) (k3 : hh' < 100) (k4 : mi' < 100) (k5 : ss' < 100)
    (e : c! "-" ++ pad2 m ++ c! "-" ++ pad2 d ++ c! "T" ++ hmsText hh mi ss ++ c! "Z" =
      c! "-" ++ pad2 m' ++ c! "-" ++ pad2 d' ++ c! "T" ++ hmsText hh' mi' ss' ++ c! "Z") :
    m = m' ∧ d = d' ∧ hh = hh' ∧ mi = mi' ∧ ss = ss' := by
  unfold hmsText at e
  simp only [List.append_assoc, List.cons_append, List.nil_append] at e
  injection e with _ e
  obtain ⟨r1, x1⟩ := pad2_split h1 k1 e
  injection x1 with _ x1
  obtain ⟨r2, x2⟩ := pad2_split h2 k2 x1
  injection x2 with _ x2
  obtain ⟨r3, x3⟩ := pad2_split h3 k3 x2
  injection x3 with _ x3
  obtain ⟨r4, x4⟩ := pad2_split h4 k4 x3
  injection x4 with _ x4
  obtain ⟨r5, -⟩ := pad2_split h5 k5 x4
  exact ⟨r1, r2, r3, r4, r5⟩

/-- The second is determined by the text. -/
theorem same_second {b c : Date} (hb : Boundary f b) (hc : Boundary f c) (hf : DayCount f) (h : b.dateTime = c.dateTime) : b.timestamp = c.timestamp := by
  rcases hb with ⟨-, -, y, m, d, hh, mi, ss, V, g1, g2, g3, g4, g5, e1, e2, -⟩ | ⟨-, -, e1, e2, -⟩ | ⟨-, -, e1, e2, -⟩ <;>
    rcases hc with ⟨-, -, y', m', d', hh', mi', ss', V', g1', g2', g3', g4', g5', e1', e2', -⟩ | ⟨-, -, e1', e2', -⟩ | ⟨-, -, e1', e2', -⟩ <;>
    rw [e1, e1'] at h <;> rw [e2, e2'] <;> first | rfl | exact absurd h rfc_ne | exact absurd h.symm rfc_ne | skip
  obtain ⟨v1, v2⟩ := valid_small V
  obtain ⟨w1, w2⟩ := valid_small V'
  by_cases hy : -9999 ≤ y ∧ y ≤ 9999
  · have hy' : -9999 ≤ y' ∧ y' ≤ 9999 := by
      apply Decidable.byContradiction
      intro n
      have a := (zulu_iff hf).2 ⟨_, _, _, _, _, _, _, day_ok V hy.1 hy.2, g1, g2, g3, rfl, rfl⟩
      rw [← rfc_text hy.1 hy.2, h] at a
      obtain ⟨⟨r, hr, -⟩, -⟩ := a
      exact rfc_rejected (by omega) g4' g5' r hr
    have a := (zulu_iff hf).2 ⟨_, _, _, _, _, _, _, day_ok V hy.1 hy.2, g1, g2, g3, rfl, rfl⟩
    have b := (zulu_iff hf).2 ⟨_, _, _, _, _, _, _, day_ok V' hy'.1 hy'.2, g1', g2', g3', rfl, rfl⟩
    rw [← rfc_text hy.1 hy.2, h] at a
    rw [← rfc_text hy'.1 hy'.2] at b
    obtain ⟨⟨r, hr, -, t, -⟩, -⟩ := a
    obtain ⟨⟨r', hr', -, t', -⟩, -⟩ := b
    rw [hr] at hr'; cases hr'
    rw [t] at t'; injection t' with t'
    rw [value_of, value_of] at t'
    congr 1
  · have hy' : ¬ (-9999 ≤ y' ∧ y' ≤ 9999) := by
      intro hy'
      have a := (zulu_iff hf).2 ⟨_, _, _, _, _, _, _, day_ok V' hy'.1 hy'.2, g1', g2', g3', rfl, rfl⟩
      rw [← rfc_text hy'.1 hy'.2, ← h] at a
      obtain ⟨⟨r, hr, -⟩, -⟩ := a
      exact rfc_rejected (by omega) g4 g5 r hr
    have two : (y = -10000 ∨ y = 10000) ∧ (y' = -10000 ∨ y' = 10000) := by omega
    have key : y = y' → some (86400 * f y m d + ((3600 * hh + 60 * mi + ss : Nat) : Int)) = some (86400 * f y' m' d' + ((3600 * hh' + 60 * mi' + ss' : Nat) : Int)) := by
      rintro rfl
      unfold rfcText at h
      simp only [List.append_assoc] at h
      have h := List.append_cancel_left h
      obtain ⟨rfl, rfl, rfl, rfl, rfl⟩ := rest_inj (hh := hh) (mi := mi) (ss := ss) (hh' := hh') (mi' := mi') (ss' := ss') v1 v2
        (by omega) (by omega) (by omega) w1 w2 (by omega) (by omega) (by omega) (by simpa only [List.append_assoc] using h)
      rfl
    rcases two with ⟨a | a, b | b⟩
    · exact key (a.trans b.symm)
    · subst a; subst b
      injection h with h _
      exact absurd h (by decide)
    · subst a; subst b
      injection h with h _
      exact absurd h (by decide)
    · exact key (a.trans b.symm)

/-! ### The normal form -/

/-- The boundaries that hold the first and the last second. -/
theorem spans_bd {s : Str} {d : EDTFDate} {l u : Int} (h : parseString s = .ok d) (hl : d.lower = .ok l) (hu : d.upper = .ok u) :
    ∃ b e, Begins d b ∧ Finishes d e ∧ b.timestamp = some l ∧ e.timestamp = some u := by
  obtain ⟨es, ee, sl, su, el, eu, h1, h2, -⟩ := C31_wellformed (f := U) dayCount_unixDay h
  refine ⟨sl, eu, ⟨_, h1, rfl⟩, ⟨_, h2, rfl⟩, ?_, ?_⟩
  · unfold EDTFDate.lower at hl
    rw [h1] at hl
    change (match sl.timestamp with | none => _ | some t => _) = _ at hl
    split at hl
    · cases hl
    · injection hl with hl; rw [← hl]; assumption
  · unfold EDTFDate.upper at hu
    rw [h2] at hu
    change (match eu.timestamp with | none => _ | some t => _) = _ at hu
    split at hu
    · cases hu
    · injection hu with hu; rw [← hu]; assumption

theorem bd_spans {d : EDTFDate} {b e : Date} {l u : Int} (hb : Begins d b) (he : Finishes d e) (h1 : b.timestamp = some l) (h2 : e.timestamp = some u) :
    d.lower = .ok l ∧ d.upper = .ok u := by
  obtain ⟨S, e1, e2⟩ := hb
  obtain ⟨E, e4, e5⟩ := he
  constructor
  · unfold EDTFDate.lower; rw [e1]; show (do let l ← Res.deref S.lower; _) = _; rw [e2]; show (match b.timestamp with | none => _ | some t => _) = _; rw [h1]
  · unfold EDTFDate.upper; rw [e4]; show (do let l ← Res.deref E.upper; _) = _; rw [e5]; show (match e.timestamp with | none => _ | some t => _) = _; rw [h2]

theorem no_T (x : Date0) : 'T' ∉ x.text := by
  obtain ⟨neg, y, t⟩ := x
  rw [date0_text]
  intro h
  cases neg <;> cases t <;> simp [sgn, yearStr, pad4, pad2, (dig_mod_ne _ (show isDig 'T' = false by decide)).symm] at h

theorem takeWhile_stop {s t : Str} (h : 'T' ∉ s) : (s ++ 'T' :: t).takeWhile (fun c => c != 'T') = s := by
  induction s with
  | nil => rfl
  | cons c s ih =>
    have hc : c ≠ 'T' := by rintro rfl; exact h List.mem_cons_self
    rw [List.cons_append, List.takeWhile_cons_of_pos (by simpa using hc), ih (fun k => h (List.mem_cons_of_mem _ k))]

theorem dayPart_rfc {y : Int} {m d hh mi ss : Nat} (h1 : -9999 ≤ y) (h2 : y ≤ 9999) :
    dayPart (rfcText y m d hh mi ss) = (⟨decide (y < 0), y.natAbs, .day m d⟩ : Date0).text := by
  rw [rfc_text h1 h2]
  exact takeWhile_stop (no_T _)

theorem boundary_day (hf : DayCount f) {b : Date} (B : Boundary f b) {y : Int} {m d k : Nat} (V : Valid y m d) (h1 : -9999 ≤ y) (h2 : y ≤ 9999) (hk : k < 86400)
    (h : b.timestamp = some (86400 * f y m d + (k : Nat))) : dayPart b.dateTime = (⟨decide (y < 0), y.natAbs, .day m d⟩ : Date0).text := by
  rcases B with ⟨-, -, y', m', d', hh', mi', ss', V', g1', g2', g3', g4', g5', e1', e2', -⟩ | ⟨-, -, e1', e2', -⟩ | ⟨-, -, e1', e2', -⟩
  · rw [e2'] at h; injection h with h
    have hk' : k = 3600 * (k / 3600) + 60 * (k % 3600 / 60) + k % 60 := by omega
    rw [hk'] at h
    obtain ⟨rfl, rfl, rfl, -⟩ := C31_determined hf V' V g1' g2' g3' (by omega) (by omega) (by omega) h
    rw [e1', dayPart_rfc h1 h2]
  · rw [e2'] at h; cases h
  · rw [e2'] at h; cases h

theorem normal_unique {s w v : Str} (h : Normal s w) (k : Normal s v) : w = v := by
  cases h with
  | moment h hc hb =>
    cases k with
    | moment h' _ hb' => rw [h] at h'; cases h'; rw [begins_unique hb hb']
    | days h' hc' => exact absurd hc hc'
  | days h hc hb he =>
    cases k with
    | moment h' hc' => exact absurd hc' hc
    | days h' _ hb' he' => rw [h] at h'; cases h'; rw [begins_unique hb hb', finishes_unique he he']

theorem normal_moment {s w : Str} {d : EDTFDate} {b : Date} (h : parseString s = .ok d) (hb : Begins d b) (hw : b.dateTime = w) (hc : ':' ∈ s) : Normal s w :=
  hw ▸ .moment h hc hb

theorem normal_interval {s v w : Str} {d : EDTFDate} {b e : Date} (h : parseString s = .ok d) (hb : Begins d b) (he : Finishes d e) (hv : dayPart b.dateTime = v) (hw : dayPart e.dateTime = w)
    (hc : ':' ∉ s) (nb : b.dateTime ≠ []) (ne : e.dateTime ≠ []) : Normal s (v ++ '/' :: w) := by
  cases hv; cases hw; exact .days h hc hb he nb ne

/-- C103: exactly the texts with a first and a last second have a normal form. -/
theorem C103_exists {s : Str} : (∃ w, Normal s w) ↔ ∃ l u, Spans s l u := by
  constructor
  · rintro ⟨w, h⟩
    cases h with
    | moment h hc hb => obtain ⟨i, hi⟩ := C100_colon h hc; exact ⟨i, i, hi⟩
    | days h hc hb he nb ne =>
      obtain ⟨l, hl⟩ := (text_second (boundary_of (f := U) dayCount_unixDay h (begins_boundary hb))).1 nb
      obtain ⟨u, hu⟩ := (text_second (boundary_of (f := U) dayCount_unixDay h (finishes_boundary he))).1 ne
      exact ⟨l, u, _, h, bd_spans hb he hl hu⟩
  · rintro ⟨l, u, d, h, hl, hu⟩
    obtain ⟨b, e, hb, he, h1, h2⟩ := spans_bd h hl hu
    by_cases hc : ':' ∈ s
    · exact ⟨_, .moment h hc hb⟩
    · exact ⟨_, .days h hc hb he ((text_second (boundary_of (f := U) dayCount_unixDay h (begins_boundary hb))).2 ⟨_, h1⟩)
        ((text_second (boundary_of (f := U) dayCount_unixDay h (finishes_boundary he))).2 ⟨_, h2⟩)⟩

/-- The normal form of a text without a time of day, written out. -/
theorem normal_days (hf : DayCount f) {s w : Str} {l u : Int} (h : Spans s l u) (hc : ':' ∉ s) (hw : Normal s w) :
    ∃ (y : Int) (m d : Nat) (y' : Int) (m' d' : Nat), Valid y m d ∧ -9999 ≤ y ∧ y ≤ 9999 ∧ l = 86400 * f y m d ∧
      Valid y' m' d' ∧ -9999 ≤ y' ∧ y' ≤ 9999 ∧ u = 86400 * f y' m' d' + 86399 ∧
      w = (⟨decide (y < 0), y.natAbs, .day m d⟩ : Date0).text ++ '/' :: (⟨decide (y' < 0), y'.natAbs, .day m' d'⟩ : Date0).text := by
  obtain ⟨a, b⟩ := spans_ends h
  obtain ⟨y, m, d, V, g1, g2, e⟩ := (C100_days hf hc).1 a
  obtain ⟨y', m', d', V', g1', g2', e'⟩ := (C100_days hf hc).2 b
  refine ⟨y, m, d, y', m', d', V, g1, g2, e, V', g1', g2', e', ?_⟩
  cases hw with
  | moment _ hc' => exact absurd hc' hc
  | days k _ hb he =>
    obtain ⟨r, hr, hl, hu⟩ := h
    rw [hr] at k; cases k
    obtain ⟨b', e'', hb', he', h1, h2⟩ := spans_bd hr hl hu
    cases begins_unique hb hb'
    cases finishes_unique he he'
    rw [boundary_day hf (boundary_of hf hr (begins_boundary hb)) V g1 g2 (k := 0) (by omega) (by rw [h1, e]; simp),
      boundary_day hf (boundary_of hf hr (finishes_boundary he)) V' g1' g2' (k := 86399) (by omega) (by rw [h2, e']; rfl)]

theorem days_spans (hf : DayCount f) {y : Int} {m d : Nat} {y' : Int} {m' d' : Nat} (V : Valid y m d) (h1 : -9999 ≤ y) (h2 : y ≤ 9999)
    (V' : Valid y' m' d') (h1' : -9999 ≤ y') (h2' : y' ≤ 9999) :
    Spans ((⟨decide (y < 0), y.natAbs, .day m d⟩ : Date0).text ++ '/' :: (⟨decide (y' < 0), y'.natAbs, .day m' d'⟩ : Date0).text)
      (86400 * f y m d) (86400 * f y' m' d' + 86399) := by
  obtain ⟨r, hr, a, b⟩ := C08_bounds hf (day_ok V h1 h2) (day_ok V' h1' h2')
  rw [value_of] at a b
  exact ⟨r, hr, a, b⟩

/-- **C103.** A text with a first and a last second has exactly one normal form, and the normal form stands for
the same time; if the text has a time of day, provided this is of the years -9999 to 9999 in universal time. -/
theorem C103_normal (hf : DayCount f) {s : Str} {l u : Int} (h : Spans s l u) (hy : ':' ∈ s → InYears f l) :
    ∃ w, Normal s w ∧ Spans w l u ∧ ∀ v, Normal s v → v = w := by
  obtain ⟨w, hw⟩ := C103_exists.2 ⟨l, u, h⟩
  refine ⟨w, hw, ?_, fun v hv => normal_unique hv hw⟩
  by_cases hc : ':' ∈ s
  · cases hw with
    | days _ hc' => exact absurd hc hc'
    | moment k _ hb =>
      obtain ⟨r, hr, hl, hu⟩ := id h
      rw [hr] at k; cases k
      obtain ⟨b', e'', hb', he', h1, h2⟩ := spans_bd hr hl hu
      cases begins_unique hb hb'
      obtain ⟨⟨r', p1, -, p2, p3⟩, -⟩ := ((C103_moment hf hr (begins_boundary hb)).2 l h1).1 (hy hc)
      obtain ⟨i, hi⟩ := C100_colon hr hc
      obtain ⟨rfl, rfl⟩ := spans_unique h hi
      exact ⟨r', p1, p2, p3⟩
  · obtain ⟨y, m, d, y', m', d', V, g1, g2, rfl, V', g1', g2', rfl, rfl⟩ := normal_days hf h hc hw
    exact days_spans hf V g1 g2 V' g1' g2'

example : Normal (c! "1985-04-XX") (c! "1985-04-01/1985-04-30") :=
  normal_interval (v := c! "1985-04-01") (w := c! "1985-04-30") rfl ⟨_, rfl, rfl⟩ ⟨_, rfl, rfl⟩ (by decide +kernel) (by decide +kernel) (by decide) (by decide +kernel) (by decide +kernel)

example : Normal (c! "1985-04-12T23:20:30-02:30") (c! "1985-04-13T01:50:30Z") :=
  normal_moment rfl ⟨_, rfl, rfl⟩ (by decide +kernel) (by decide)

theorem normal_of (hf : DayCount f) {s t w v : Str} {l u : Int} (h : Normal s w) (k : Normal t v) (hs : Spans s l u) (ht : Spans t l u) : w = v := by
  have mixed : ∀ {a b : Str}, ':' ∈ a → ':' ∉ b → Spans a l u → Spans b l u → False := by
    intro a b ha hb sa sb
    obtain ⟨d, p, -⟩ := id sa
    obtain ⟨i, hi⟩ := C100_colon p ha
    obtain ⟨rfl, rfl⟩ := spans_unique sa hi
    obtain ⟨n, hn⟩ := C100_length sb hb
    omega
  cases h with
  | moment h hc hb =>
    cases k with
    | moment h' hc' hb' =>
      obtain ⟨d, p, p1, p2⟩ := hs
      obtain ⟨d', q, q1, q2⟩ := ht
      rw [h] at p; cases p
      rw [h'] at q; cases q
      obtain ⟨b1, e1, x1, y1, t1, r1⟩ := spans_bd h p1 p2
      obtain ⟨b2, e2, x2, y2, t2, r2⟩ := spans_bd h' q1 q2
      cases begins_unique hb x1
      cases begins_unique hb' x2
      exact equal_text hf (boundary_of hf h (begins_boundary hb)) (boundary_of hf h' (begins_boundary hb')) (t1.trans t2.symm)
    | days h' hc' => exact (mixed hc hc' hs ht).elim
  | days h hc hb he =>
    cases k with
    | moment h' hc' => exact (mixed hc' hc ht hs).elim
    | days h' hc' hb' he' =>
      obtain ⟨d, p, p1, p2⟩ := hs
      obtain ⟨d', q, q1, q2⟩ := ht
      rw [h] at p; cases p
      rw [h'] at q; cases q
      obtain ⟨b1, e1, x1, y1, t1, r1⟩ := spans_bd h p1 p2
      obtain ⟨b2, e2, x2, y2, t2, r2⟩ := spans_bd h' q1 q2
      cases begins_unique hb x1
      cases begins_unique hb' x2
      cases finishes_unique he y1
      cases finishes_unique he' y2
      rw [equal_text hf (boundary_of hf h (begins_boundary hb)) (boundary_of hf h' (begins_boundary hb')) (t1.trans t2.symm),
        equal_text hf (boundary_of hf h (finishes_boundary he)) (boundary_of hf h' (finishes_boundary he')) (r1.trans r2.symm)]

/-- **C103.** Two texts have the same normal form exactly if they stand for the same time (also outside the
years in which the normal form can be read). -/
theorem C103_same (hf : DayCount f) {s t w v : Str} (h : Normal s w) (k : Normal t v) : w = v ↔ ∃ l u, Spans s l u ∧ Spans t l u := by
  constructor
  · rintro rfl
    obtain ⟨l, u, hs⟩ := C103_exists.1 ⟨_, h⟩
    obtain ⟨l', u', ht⟩ := C103_exists.1 ⟨_, k⟩
    have mixed : ∀ {a b : Str} {l u l' u' : Int}, ':' ∈ a → ':' ∉ b → Normal a w → Normal b w → Spans a l u → Spans b l' u' → False := by
      intro a b l u l' u' ha hb na nb sa sb
      obtain ⟨x, hx, sx, ux⟩ := C103_normal hf sb (fun n => absurd n hb)
      cases ux _ nb
      obtain ⟨d, p, -⟩ := id sa
      obtain ⟨i, hi⟩ := C100_colon p ha
      obtain ⟨e1, e2⟩ := spans_unique sa hi
      obtain ⟨n, hn⟩ := C100_length sb hb
      by_cases hy : InYears f l
      · obtain ⟨x, hx, sx', ux⟩ := C103_normal hf sa (fun _ => hy)
        cases ux _ na
        obtain ⟨e3, e4⟩ := spans_unique sx sx'
        omega
      · cases na with
        | days _ hc' => exact hc' ha
        | moment q _ bq =>
          obtain ⟨d', p', p1, p2⟩ := sa
          rw [q] at p'; cases p'
          obtain ⟨b1, e1, x1, y1, t1, r1⟩ := spans_bd q p1 p2
          cases begins_unique bq x1
          obtain ⟨r, hr, -⟩ := sx
          exact (((C103_moment hf q (begins_boundary bq)).2 l t1).2 hy).2 r hr
    by_cases hc : ':' ∈ s
    · by_cases hc' : ':' ∈ t
      · obtain ⟨d, p, p1, p2⟩ := id hs
        obtain ⟨d', q, q1, q2⟩ := id ht
        obtain ⟨b1, e1, x1, y1, t1, r1⟩ := spans_bd p p1 p2
        obtain ⟨b2, e2, x2, y2, t2, r2⟩ := spans_bd q q1 q2
        have a1 := normal_unique h (.moment p hc x1)
        have a2 := normal_unique k (.moment q hc' x2)
        have := same_second (boundary_of hf p (begins_boundary x1)) (boundary_of hf q (begins_boundary x2)) hf (a1.symm.trans a2)
        rw [t1, t2] at this
        injection this with this
        obtain ⟨i, hi⟩ := C100_colon p hc
        obtain ⟨j, hj⟩ := C100_colon q hc'
        obtain ⟨a3, a4⟩ := spans_unique hs hi
        obtain ⟨a5, a6⟩ := spans_unique ht hj
        refine ⟨l, u, hs, ?_⟩
        rw [this, show u = u' by omega]
        exact ht
      · exact (mixed hc hc' h k hs ht).elim
    · by_cases hc' : ':' ∈ t
      · exact (mixed hc' hc k h ht hs).elim
      · obtain ⟨x, hx, sx, ux⟩ := C103_normal hf hs (fun n => absurd n hc)
        obtain ⟨x', hx', sx', ux'⟩ := C103_normal hf ht (fun n => absurd n hc')
        cases ux _ h
        cases ux' _ k
        obtain ⟨rfl, rfl⟩ := spans_unique sx sx'
        exact ⟨l, u, hs, ht⟩
  · rintro ⟨l, u, hs, ht⟩
    exact normal_of hf h k hs ht

example : Normal (c! "9999-12-31T23:59:59-01") (c! "10000-01-01T00:59:59Z") ∧ Normal (c! "9999-12-31T22:59:59-02") (c! "10000-01-01T00:59:59Z") :=
  ⟨normal_moment rfl ⟨_, rfl, rfl⟩ (by decide +kernel) (by decide), normal_moment rfl ⟨_, rfl, rfl⟩ (by decide +kernel) (by decide)⟩

/-- C103: a normal form that is understood is its own normal form. -/
theorem C103_idem (hf : DayCount f) {s w : Str} {d : EDTFDate} (h : Normal s w) (hr : parseString w = .ok d) : Normal w w := by
  obtain ⟨l, u, hs⟩ := C103_exists.1 ⟨_, h⟩
  have hy : ':' ∈ s → InYears f l := by
    intro hc
    apply Classical.byContradiction
    intro hy
    cases h with
    | days _ hc' => exact hc' hc
    | moment h _ hb =>
      obtain ⟨d', p', p1, p2⟩ := hs
      rw [h] at p'; cases p'
      obtain ⟨b1, e1, x1, y1, t1, r1⟩ := spans_bd h p1 p2
      cases begins_unique hb x1
      exact (((C103_moment hf h (begins_boundary hb)).2 l t1).2 hy).2 d hr
  obtain ⟨w', -, sw, uw⟩ := C103_normal hf hs hy
  cases uw _ h
  obtain ⟨v, hv⟩ := C103_exists.2 ⟨l, u, sw⟩
  cases normal_of hf h hv hs sw
  exact hv

/-- **C103.** No comparison tells a text from its normal form, if this is understood: so all comparisons
between such texts are comparisons between their normal forms. -/
theorem C103_compare (hf : DayCount f) {s w : Str} {d : EDTFDate} (h : Normal s w) (hr : parseString w = .ok d) : Indistinct s w := by
  have i := C103_idem hf h hr
  obtain ⟨l, u, hs, hw⟩ := (C103_same hf h i).1 rfl
  exact (C99_indistinct hs hw).2 ⟨rfl, rfl⟩

theorem dayText_eq {y : Int} {m d : Nat} (h1 : -9999 ≤ y) (h2 : y ≤ 9999) : dayText y m d = (⟨decide (y < 0), y.natAbs, .day m d⟩ : Date0).text := by
  rw [date0_text]
  unfold dayText yearText yearDigits yearStr sgn
  rw [if_pos (show y.natAbs < 10000 by omega)]
  by_cases h : y < 0 <;> simp [h]

/-- **C103.** The texts that are their own normal form, and so the normal forms that are understood, exactly. -/
theorem C103_fixed (hf : DayCount f) {w : Str} : Normal w w ↔ InNormalForm w := by
  constructor
  · intro h
    obtain ⟨l, u, hs⟩ := C103_exists.1 ⟨_, h⟩
    by_cases hc : ':' ∈ w
    · obtain ⟨d, p, p1, p2⟩ := id hs
      obtain ⟨b1, e1, x1, y1, t1, r1⟩ := spans_bd p p1 p2
      have hw := normal_unique h (.moment p hc x1)
      rcases boundary_of hf p (begins_boundary x1) with ⟨-, -, y, m, dd, hh, mi, ss, V, g1, g2, g3, g4, g5, e1, e2, -⟩ | ⟨-, -, e1, e2, -⟩ | ⟨-, -, e1, e2, -⟩
      · have hy : -9999 ≤ y ∧ y ≤ 9999 := by
          apply Decidable.byContradiction
          intro n
          rw [hw, e1] at p
          exact rfc_rejected (by omega) g4 g5 d p
        rw [hw, e1, rfc_text hy.1 hy.2, ← dayText_eq hy.1 hy.2]
        exact .moment V hy.1 hy.2 g1 g2 g3
      · rw [e2] at t1; cases t1
      · rw [e2] at t1; cases t1
    · obtain ⟨y, m, d, y', m', d', V, g1, g2, -, V', g1', g2', -, e⟩ := normal_days hf hs hc h
      rw [e, ← dayText_eq g1 g2, ← dayText_eq g1' g2']
      exact .days V g1 g2 V' g1' g2'
  · intro h
    cases h with
    | @moment y m d hh mi ss V h1 h2 h3 h4 h5 =>
      have a := (zulu_iff hf).2 ⟨_, _, _, _, _, _, _, day_ok V h1 h2, h3, h4, h5, rfl, rfl⟩
      rw [← dayText_eq h1 h2] at a
      rw [value_of] at a
      obtain ⟨⟨r, hr, -, t, t'⟩, -⟩ := a
      obtain ⟨b1, e1, x1, y1, t1, r1⟩ := spans_bd hr t t'
      have hc : ':' ∈ dayText y m d ++ 'T' :: (hmsText hh mi ss ++ c! "Z") := by unfold hmsText; simp
      have n := Normal.moment hr hc x1
      have : b1.dateTime = dayText y m d ++ 'T' :: (hmsText hh mi ss ++ c! "Z") := by
        rw [dayText_eq h1 h2, ← rfc_text h1 h2]
        rcases boundary_of hf hr (begins_boundary x1) with ⟨-, -, y', m', dd', hh', mi', ss', V', g1, g2, g3, g4, g5, e1, e2, -⟩ | ⟨-, -, e1, e2, -⟩ | ⟨-, -, e1, e2, -⟩
        · rw [e2] at t1; injection t1 with t1
          obtain ⟨rfl, rfl, rfl, rfl, rfl, rfl⟩ := C31_determined hf V' V g1 g2 g3 h3 h4 h5 (by omega)
          exact e1
        · rw [e2] at t1; cases t1
        · rw [e2] at t1; cases t1
      rw [this] at n
      exact n
    | @days y m d y' m' d' V h1 h2 V' h1' h2' =>
      have hs := days_spans hf V h1 h2 V' h1' h2'
      rw [← dayText_eq h1 h2, ← dayText_eq h1' h2'] at hs
      have hc : ':' ∉ dayText y m d ++ '/' :: dayText y' m' d' := by
        intro k
        rw [dayText_eq h1 h2, dayText_eq h1' h2', date0_text, date0_text] at k
        cases hy : decide (y < 0) <;> cases hy' : decide (y' < 0) <;> rw [hy, hy'] at k <;>
          simp [sgn, yearStr, pad4, pad2, (dig_mod_ne _ (show isDig ':' = false by decide)).symm] at k
      obtain ⟨w, hw⟩ := C103_exists.2 ⟨_, _, hs⟩
      obtain ⟨a, b, c, a', b', c', v, i1, i2, e, v', i1', i2', e', hw'⟩ := normal_days hf hs hc hw
      obtain ⟨rfl, rfl, rfl, -⟩ := C31_determined (hh := 0) (mi := 0) (ss := 0) (hh' := 0) (mi' := 0) (ss' := 0) hf V v (by omega) (by omega) (by omega) (by omega) (by omega) (by omega) (by omega)
      obtain ⟨rfl, rfl, rfl, -⟩ := C31_determined (hh := 0) (mi := 0) (ss := 0) (hh' := 0) (mi' := 0) (ss' := 0) hf V' v' (by omega) (by omega) (by omega) (by omega) (by omega) (by omega) (by omega)
      rw [← dayText_eq h1 h2, ← dayText_eq h1' h2'] at hw'
      rw [hw'] at hw
      exact hw

example : InNormalForm (c! "-0044-03-15/0000-02-29") ∧ ¬ InNormalForm (c! "-0000-02-29/0000-02-29") := by
  refine ⟨?_, fun h => ?_⟩
  · rw [show c! "-0044-03-15/0000-02-29" = dayText (-44) 3 15 ++ '/' :: dayText 0 2 29 by decide]
    exact .days (by decide) (by decide) (by decide) (by decide) (by decide) (by decide)
  have n := (C103_fixed (f := U) dayCount_unixDay).2 h
  have k : Normal (c! "-0000-02-29/0000-02-29") (c! "0000-02-29/0000-02-29") :=
    normal_interval (v := c! "0000-02-29") (w := c! "0000-02-29") rfl ⟨_, rfl, rfl⟩ ⟨_, rfl, rfl⟩ (by decide +kernel) (by decide +kernel) (by decide) (by decide +kernel) (by decide +kernel)
  exact absurd (normal_unique n k) (by decide)

end EDTF
