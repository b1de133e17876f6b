/-
C101: the flags for precision and for unspecified digits.
-/
import Verif.PropsMark2
namespace EDTF
open Spec

variable {f : Int → Nat → Nat → Int}

/-- A precision of days. -/
def units : List Prec := [Prec.YEAR, Prec.MONTH, Prec.DECADE, Prec.CENTURY, Prec.MILLENIUM]

/-- No boundary, or one with a unit, which is the year unless `X`. -/
def Unit (X : Prop) (b : Date) : Prop :=
  b.unspecified = 0 ∧ ((b.timestamp = none ∧ b.precision = 0) ∨ (b.timestamp ≠ none ∧ b.precision ∈ units ∧ (¬ X → b.precision = Prec.YEAR)))

theorem unit_mem (x : XDate) : x.unit ∈ units := by
  have hy : ∀ y, yearUnitOf y ∈ units := by
    intro y
    unfold yearUnitOf
    split
    · split
      · decide
      · split <;> decide
    · decide
  unfold XDate.unit
  split
  · split <;> decide
  · split
    · decide
    · exact hy _

theorem unit_year {e : Endpoint} (hX : 'X' ∉ e.text) : e.date.unit = Prec.YEAR := by
  obtain ⟨⟨neg, yy, tl⟩, qy, qm, qd⟩ := e
  have hy : 'X' ∉ yy := fun hm => hX (List.mem_append_left _ (mem_deco (by
    cases neg
    · exact hm
    · exact List.mem_cons_of_mem _ hm)))
  have ht : 'X' ∉ (⟨neg, yy, tl⟩ : XDate).mx ∧ 'X' ∉ (⟨neg, yy, tl⟩ : XDate).dx := by
    cases tl with
    | none => exact ⟨by simp [XDate.mx], by simp [XDate.dx]⟩
    | month m => exact ⟨fun hm => hX (List.mem_append_right _ (List.mem_cons_of_mem _ (mem_deco hm))), by simp [XDate.dx]⟩
    | day m d =>
      exact ⟨fun hm => hX (List.mem_append_right _ (List.mem_cons_of_mem _ (List.mem_append_left _ (mem_deco hm)))),
        fun hm => hX (List.mem_append_right _ (List.mem_cons_of_mem _ (List.mem_append_right _ (List.mem_cons_of_mem _ (mem_deco hm)))))⟩
  unfold XDate.unit
  have no : ∀ {w v : Str}, 'X' ∉ w → 'X' ∈ v → w ≠ v := fun h k e => h (e ▸ k)
  rw [if_neg (no ht.2 (by decide)), if_neg (fun h => h.elim (no ht.1 (by decide)) (no ht.1 (by decide)))]
  show yearUnitOf yy = _
  unfold yearUnitOf
  split
  · simp at hy
  · rfl

theorem unit_start {X : Prop} {p : Prec} (hp : p ∈ units) (h : ¬ X → p = Prec.YEAR) (y : Int) (m d : Nat) (u a : Prec) :
    Unit X (dayStart f y m d u a p) ∧ Unit X (dayEnd f y m d u a p) := by
  refine ⟨⟨rfl, .inr ⟨?_, hp, h⟩⟩, rfl, .inr ⟨?_, hp, h⟩⟩
  · rw [ts_start]; simp
  · rw [ts_end]; simp

theorem unit_e {X : Prop} {e : Endpoint} (hX : 'X' ∈ e.text → X) (y : Int) (m d : Nat) : Unit X (e.dawn f y m d) ∧ Unit X (e.dusk f y m d) :=
  unit_start (unit_mem _) (fun h => unit_year fun k => h (hX k)) _ _ _ _ _

theorem unit_none {X : Prop} : Unit X unknownEnd ∧ Unit X openEnd := ⟨⟨rfl, .inl ⟨rfl, rfl⟩⟩, rfl, .inl ⟨rfl, rfl⟩⟩

theorem span_unit {X : Prop} {t : Str} {S E : DateRange} (h : SpanOf f t S E) (hX : 'X' ∈ t → X) : Both (Unit X) S ∧ Both (Unit X) E := by
  cases h with
  | date e h y1 m1 d1 y2 m2 d2 hr =>
    refine ⟨both_mk (unit_e hX _ _ _).1 ?_, both_mk ?_ (unit_e hX _ _ _).2⟩
    · split
      · exact (unit_e hX _ _ _).1
      · exact (unit_e hX _ _ _).2
    · split
      · exact (unit_e hX _ _ _).2
      · exact (unit_e hX _ _ _).1

theorem range_unit {X : Prop} {t : Str} {R : DateRange} (h : RangeOf f t R) (hX : 'X' ∈ t → X) : Both (Unit X) R := by
  cases h with
  | absent => exact both_mk unit_none.1 unit_none.1
  | date e h y1 m1 d1 y2 m2 d2 hr => exact both_mk (unit_e hX _ _ _).1 (unit_e hX _ _ _).2

theorem date_unit {X : Prop} (x : Date0) (t : Str) (u a : Prec) : Both (Unit X) (x.range f t u a Prec.YEAR) :=
  both_mk (unit_start (by decide) (fun _ => rfl) _ _ _ _ _).1 (unit_start (by decide) (fun _ => rfl) _ _ _ _ _).2

theorem set_unit {X : Prop} {p : Prec} {cs : List Chunk} (hc : ChunksOk cs) {x y : Bool} {S E : DateRange}
    (h : SetSpan f p (cs.flatMap Chunk.members) x y S E) : Both (Unit X) S ∧ Both (Unit X) E := by
  have nX : ∀ {t : Str}, t ∈ cs.flatMap Chunk.members → 'X' ∈ t → X := by
    intro t h k
    rcases member_run hc.1 h with rfl | ⟨r, -, rfl⟩
    · cases k
    · exact absurd k (unm_run r _ (by decide))
  have fl : ∀ {R : DateRange}, Both (Unit X) R → Both (Unit X) (flagged p R) := fun h => flagged_flags (fun _ k => k) h
  have op : ∀ t, Both (Unit X) (openRange t) := fun t => both_mk unit_none.2 unit_none.2
  have mix : ∀ {R S : DateRange} {t : Str}, Both (Unit X) R → Both (Unit X) S → Both (Unit X) ⟨t, R.lower, S.upper⟩ := by
    rintro R S t h1 h2 b (k | k)
    · exact h1 b (.inl k)
    · exact h2 b (.inr k)
  cases h with
  | one t h S E hs => exact ⟨fl (span_unit hs (nX h.1)).1, fl (span_unit hs (nX h.1)).2⟩
  | closed a b h hab R S hR hS => exact ⟨fl (range_unit hR (nX h.1)), fl (range_unit hS (nX h.2.1))⟩
  | upTo1 t h R hR => exact ⟨op _, fl (range_unit hR (nX (by rw [h]; simp)))⟩
  | onFrom1 t h R hR => exact ⟨fl (range_unit hR (nX (by rw [h]; simp))), op _⟩
  | upTo a b h h2 R S hR hS => exact ⟨op _, fl (mix (range_unit hR (nX h.1)) (range_unit hS (nX h.2.1)))⟩
  | onFrom a b h h2 R S hR hS => exact ⟨fl (mix (range_unit hR (nX h.1)) (range_unit hS (nX h.2.1))), op _⟩
  | both a b h h2 R S hR hS =>
    have := mix (t := []) (op (c! "")) (range_unit hS (nX h.2.1))
    exact ⟨this, this⟩

/-- The units of every text but a time of day. -/
theorem denotes_unit {s : Str} {d : EDTFDate} (hd : Denotes f s d) :
    (d.feature = c! "Date and Time" ∧ ∀ b, BoundaryOf d b → b.unspecified = 0 ∧ b.timestamp ≠ none ∧ b.precision = 0) ∨
    ∀ b, BoundaryOf d b → Unit ('X' ∈ s) b := by
  have all : ∀ {X : Prop} {d : EDTFDate} {S E : DateRange}, d.start = some S → d.stop = some E → Both (Unit X) S → Both (Unit X) E → ∀ b, BoundaryOf d b → Unit X b :=
    fun h1 h2 h3 h4 b hb => both_boundary h1 h2 h3 h4 hb
  have day : ∀ {X : Prop} (y : Int) (m d : Nat) (u a : Prec), Unit X (dayStart f y m d u a Prec.YEAR) ∧ Unit X (dayEnd f y m d u a Prec.YEAR) :=
    fun y m d u a => unit_start (by decide) (fun _ => rfl) y m d u a
  have res : ∀ {X : Prop} (x : Date0) (t s : Str) (l : Int) (k : Str) (u a : Prec) (b : Date), BoundaryOf (x.result f t s l k u a) b → Unit X b := by
    intro X x t s l k u a b hb
    refine both_boundary rfl rfl (both_mk (day _ _ _ _ _).1 ?_) (both_mk ?_ (day _ _ _ _ _).2) hb
    · split
      · exact (day _ _ _ _ _).1
      · exact (day _ _ _ _ _).2
    · split
      · exact (day _ _ _ _ _).2
      · exact (day _ _ _ _ _).1
  cases hd with
  | unknown => exact .inr (all rfl rfl (both_mk unit_none.1 unit_none.1) (both_mk unit_none.1 unit_none.1))
  | opened => exact .inr (all rfl rfl (both_mk unit_none.2 unit_none.2) (both_mk unit_none.2 unit_none.2))
  | date x h => exact .inr (res _ _ _ _ _ _ _)
  | time neg y m d hh mi ss z hy V k1 k2 k3 hz y' m' d' hh' mi' ss' V' k1' k2' k3' e =>
    refine .inl ⟨rfl, fun b hb => ?_⟩
    exact both_boundary (P := fun b => b.unspecified = 0 ∧ b.timestamp ≠ none ∧ b.precision = 0) rfl rfl
      (both_mk ⟨rfl, Option.some_ne_none _, rfl⟩ ⟨rfl, Option.some_ne_none _, rfl⟩) (both_mk ⟨rfl, Option.some_ne_none _, rfl⟩ ⟨rfl, Option.some_ne_none _, rfl⟩) hb
  | interval a b ha hb ra rb R S hR hS => exact .inr (all rfl rfl (range_unit hR fun k => by simp [k]) (range_unit hS fun k => by simp [k]))
  | startless l hl x h =>
    rcases hl with rfl | rfl
    · exact .inr (all rfl rfl (both_mk unit_none.2 unit_none.2) (date_unit _ _ _ _))
    · exact .inr (all rfl rfl (both_mk unit_none.1 unit_none.1) (date_unit _ _ _ _))
  | endless neg n h r hr =>
    rcases hr with rfl | rfl
    · exact .inr (all rfl rfl (date_unit _ _ _ _) (both_mk unit_none.2 unit_none.2))
    · exact .inr (all rfl rfl (date_unit _ _ _ _) (both_mk unit_none.1 unit_none.1))
  | qualifiedYear neg n h q hq => exact .inr (res _ _ _ _ _ _ _)
  | group e h hn hX hl he S E hs => exact .inr (all rfl rfl (span_unit hs id).1 (span_unit hs id).2)
  | individual e h hn hX hr hl S E hs => exact .inr (all rfl rfl (span_unit hs id).1 (span_unit hs id).2)
  | unspecified x h hn hX S E hs => exact .inr (all rfl rfl (span_unit hs id).1 (span_unit hs id).2)
  | month => exact .inr (all rfl rfl (date_unit _ _ _ _) (date_unit _ _ _ _))
  | season => exact .inr (all rfl rfl (date_unit _ _ _ _) (date_unit _ _ _ _))
  | seasonName => exact .inr (all rfl rfl (date_unit _ _ _ _) (date_unit _ _ _ _))
  | letter => exact .inr (res _ _ _ _ _ _ _)
  | exponential => exact .inr (res _ _ _ _ _ _ _)
  | significant => exact .inr (all rfl rfl (date_unit _ _ _ _) (date_unit _ _ _ _))
  | grouping => exact .inr (all rfl rfl (date_unit _ _ _ _) (date_unit _ _ _ _))
  | set o c hb cs hc S E hm => exact .inr (all rfl rfl (set_unit hc hm).1 (set_unit hc hm).2)

/-- **C101.** The flag for unspecified digits is never set. -/
theorem C101_unspecified {s : Str} {d : EDTFDate} (h : parseString s = .ok d) {b : Date} (hb : BoundaryOf d b) : b.unspecified = 0 := by
  rcases denotes_unit ((C55_denotes dayCount_unixDay s d).1 h) with ⟨-, k⟩ | k
  · exact (k b hb).1
  · exact (k b hb).1

/-- Not even for a decade. -/
example : ∃ d b, parseString (c! "198X") = .ok d ∧ BoundaryOf d b ∧ b.unspecified = 0 := ⟨_, _, rfl, ⟨_, .inl rfl, .inl rfl⟩, rfl⟩

/-- **C101.** A boundary without a time has no precision, and one of a time of day has none either.  All others are precise to the year,
the month, the decade, the century or the millennium, and without `X` in the text always to the year. -/
theorem C101_precision {s : Str} {d : EDTFDate} (h : parseString s = .ok d) {b : Date} (hb : BoundaryOf d b) :
    (b.precision = 0 ↔ (b.timestamp = none ∨ ':' ∈ s)) ∧
    (b.precision ≠ 0 → b.precision ∈ [Prec.YEAR, Prec.MONTH, Prec.DECADE, Prec.CENTURY, Prec.MILLENIUM] ∧ ('X' ∉ s → b.precision = Prec.YEAR)) := by
  have hd := (C55_denotes dayCount_unixDay s d).1 h
  have colon : ':' ∈ s ↔ d.feature = c! "Date and Time" := by
    rcases denotes_lit hd with ⟨h1, h2, -⟩ | ⟨h1, h2⟩
    · exact ⟨fun _ => h2, fun _ => h1⟩
    · refine ⟨fun k => absurd k h1, fun k => ?_⟩
      obtain ⟨neg, y, m, dd, hh, mi, ss, z, _, _, _, _, _, _, _, _, _, _, _, _, _, _, _, _, _, e, -⟩ := at_denotes hd k
      rw [e]
      simp [clockText, hmsText]
  rcases denotes_unit hd with ⟨k1, k2⟩ | k
  · obtain ⟨-, k3, k4⟩ := k2 b hb
    exact ⟨⟨fun _ => .inr (colon.2 k1), fun _ => k4⟩, fun k => absurd k4 k⟩
  · obtain ⟨-, ⟨k1, k2⟩ | ⟨k1, k2, k3⟩⟩ := k b hb
    · exact ⟨⟨fun _ => .inl k1, fun _ => k2⟩, fun k => absurd k2 k⟩
    · have nz : b.precision ≠ 0 := fun e => by
        rw [e] at k2
        revert k2
        decide
      have nc : ':' ∉ s := by
        intro hc
        rcases denotes_lit hd with ⟨-, h2, -⟩ | ⟨h1, -⟩
        · obtain ⟨neg, y, m, dd, hh, mi, ss, z, _, _, _, _, _, _, _, _, _, _, _, _, _, _, _, _, _, -, e⟩ := at_denotes hd h2
          rw [e] at hb
          exact nz (both_boundary (P := fun b => b.precision = 0) rfl rfl (both_mk rfl rfl) (both_mk rfl rfl) hb)
        · exact h1 hc
      exact ⟨⟨fun e => absurd e nz, fun e => e.elim (fun e => absurd e k1) (fun e => absurd e nc)⟩, fun _ => ⟨k2, k3⟩⟩

/-- A day has the precision of a year, a decade that of a decade, and a second none. -/
example : (∃ d b, parseString (c! "1985-04-12") = .ok d ∧ BoundaryOf d b ∧ b.precision = Prec.YEAR) ∧
    (∃ d b, parseString (c! "198X") = .ok d ∧ BoundaryOf d b ∧ b.precision = Prec.DECADE) ∧
    ∃ d b, parseString (c! "1985-04-12T23:20:30Z") = .ok d ∧ BoundaryOf d b ∧ b.timestamp ≠ none ∧ b.precision = 0 :=
  ⟨⟨_, _, rfl, ⟨_, .inl rfl, .inl rfl⟩, rfl⟩, ⟨_, _, rfl, ⟨_, .inl rfl, .inl rfl⟩, rfl⟩, _, _, rfl, ⟨_, .inl rfl, .inl rfl⟩, nofun, rfl⟩

end EDTF
