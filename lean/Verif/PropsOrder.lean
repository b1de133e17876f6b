/-
C67 and C68: the comparisons and the Unix ranges of all strings.
-/
import Verif.SpecCmp
import Verif.PropsFail
import Verif.PropsWf
import Verif.PropsCmp
import Verif.PropsDenote
namespace EDTF
open Spec
variable {f : Int → Nat → Nat → Int}

/-! ### Bounds -/

theorem bounds_of (hf : DayCount f) {s : Str} {d : EDTFDate} (h : parseString s = .ok d) : ∃ sl su el eu, Bounds d sl su el eu := by
  obtain ⟨es, ee, sl, su, el, eu, h1, h2, -⟩ := C31_wellformed hf h
  exact ⟨_, _, _, _, es, ee, sl, su, el, eu, h1, h2, rfl, rfl, rfl, rfl⟩

/-- A bound, or the error that it is not set. -/
def readBound : Option Int → Res Int
  | none => .err NotSet
  | some t => .ok t

theorem lower_bounds {d : EDTFDate} {sl su el eu : Option Int} (h : Bounds d sl su el eu) :
    d.lower = readBound sl := by
  obtain ⟨s, e, a, b, c, z, h1, h2, rfl, rfl, rfl, rfl⟩ := h
  simp only [EDTFDate.lower, h1, Res.deref_some, Res.ok_bind]
  unfold readBound
  split <;> simp_all

theorem upper_bounds {d : EDTFDate} {sl su el eu : Option Int} (h : Bounds d sl su el eu) :
    d.upper = readBound eu := by
  obtain ⟨s, e, a, b, c, z, h1, h2, rfl, rfl, rfl, rfl⟩ := h
  simp only [EDTFDate.upper, h2, Res.deref_some, Res.ok_bind]
  unfold readBound
  split <;> simp_all

theorem bounds_unique {d : EDTFDate} {sl su el eu sl' su' el' eu' : Option Int} (h : Bounds d sl su el eu) (h' : Bounds d sl' su' el' eu') :
    sl = sl' ∧ su = su' ∧ el = el' ∧ eu = eu' := by
  obtain ⟨s, e, a, b, c, z, h1, h2, rfl, rfl, rfl, rfl⟩ := h
  obtain ⟨s', e', a', b', c', z', h1', h2', rfl, rfl, rfl, rfl⟩ := h'
  rw [h1] at h1'; rw [h2] at h2'
  cases h1'; cases h2'
  exact ⟨rfl, rfl, rfl, rfl⟩

theorem open_iff {s : Str} {d : EDTFDate} (h : parseString s = .ok d) : isOpenStr d.edtf = true ↔ s = c! ".." := by
  rw [(parse_inv h).1]
  unfold isOpenStr OPEN OPEN_2012
  rw [Bool.or_eq_true, beq_iff_eq, beq_iff_eq]
  refine ⟨fun e => e.resolve_right ?_, .inl⟩
  rintro rfl
  have : parseString (c! "open") = .err (Unrecognized (c! "Invalid or unsupported EDTF string") (c! "open")) := rfl
  rw [this] at h; cases h

/-! ### C67 -/

/-- Comparing two bounds, with the error of a missing one. -/
def compareBounds (p q : Option Int) (r : Int → Int → Bool) : Res Bool :=
  match p, q with
  | some p, some q => .ok (r p q)
  | _, _ => .err noBound

theorem after_bounds {s t : Str} {x y : EDTFDate} (px : parseString s = .ok x) (py : parseString t = .ok y) {xl xa xb xu yl ya yb yu : Option Int}
    (bx : Bounds x xl xa xb xu) (bz : Bounds y yl ya yb yu) :
    x.after y = if s = c! ".." then .ok false else compareBounds xl yu (fun p q => decide (q ≤ p)) := by
  have ix : ∀ p, xl = some p → InTime p := fun p e => lower_time (parsed_time px) (by rw [lower_bounds bx, e]; rfl)
  have iy : ∀ p, yu = some p → InTime p := fun p e => upper_time (parsed_time py) (by rw [upper_bounds bz, e]; rfl)
  unfold EDTFDate.after
  rw [lower_bounds bx, upper_bounds bz]
  by_cases ho : s = c! ".."
  · rw [if_pos ho, if_pos ((open_iff px).2 ho)]
  rw [if_neg ho, if_neg (by rw [open_iff px]; exact ho)]
  cases yu with
  | none => cases xl <;> rfl
  | some q =>
    cases xl with
    | none => rfl
    | some p =>
      simp only [wrapErr, readBound, Res.ok_bind, compareBounds, goSeconds_eq (ix p rfl), goSeconds_eq (iy q rfl)]
      by_cases h : q ≤ p
      · rw [if_neg (by omega), decide_eq_true h]
      · rw [if_pos (by omega), decide_eq_false h]

theorem before_bounds {s t : Str} {x y : EDTFDate} (px : parseString s = .ok x) (py : parseString t = .ok y) {xl xa xb xu yl ya yb yu : Option Int}
    (bx : Bounds x xl xa xb xu) (bz : Bounds y yl ya yb yu) :
    x.before y = if s = c! ".." then .ok false else compareBounds xu yl (fun p q => decide (p ≤ q)) := by
  have ix : ∀ p, xu = some p → InTime p := fun p e => upper_time (parsed_time px) (by rw [upper_bounds bx, e]; rfl)
  have iy : ∀ p, yl = some p → InTime p := fun p e => lower_time (parsed_time py) (by rw [lower_bounds bz, e]; rfl)
  unfold EDTFDate.before
  rw [upper_bounds bx, lower_bounds bz]
  by_cases ho : s = c! ".."
  · rw [if_pos ho, if_pos ((open_iff px).2 ho)]
  rw [if_neg ho, if_neg (by rw [open_iff px]; exact ho)]
  cases yl with
  | none => cases xu <;> rfl
  | some q =>
    cases xu with
    | none => rfl
    | some p =>
      simp only [wrapErr, readBound, Res.ok_bind, compareBounds, goSeconds_eq (ix p rfl), goSeconds_eq (iy q rfl)]
      by_cases h : p ≤ q
      · rw [if_neg (by omega), decide_eq_true h]
      · rw [if_pos (by omega), decide_eq_false h]

/-- Both comparisons at once. -/
theorem compared (hf : DayCount f) (op : EDTFDate → EDTFDate → Res Bool) (mine theirs : Option Int × Option Int → Option Int) (holds : Int → Int → Bool)
    (hop : ∀ {s t : Str} {x y : EDTFDate} (_ : parseString s = .ok x) (_ : parseString t = .ok y) {xl xa xb xu yl ya yb yu : Option Int}
      (_ : Bounds x xl xa xb xu) (_ : Bounds y yl ya yb yu),
      op x y = if s = c! ".." then .ok false else compareBounds (mine (xl, xu)) (theirs (yl, yu)) holds)
    (s t : Str) (r : Res Bool) :
    (formatErr (parseString s)).bind (fun a => (formatErr (parseString t)).bind (fun b => op a b)) = r ↔
      Compared f mine theirs (fun p q => holds p q = true) s t r := by
  have hopen : parseString (c! "..") = .ok (mkEDTF openDateSpan OPEN (-1) (c! "Open")) := rfl
  constructor
  · rintro rfl
    cases px : parseString s with
    | err e => exact .left e ((C62_error s e).1 px)
    | panic => exact .leftPanic ((C63_panic s).1 px)
    | ok x =>
      have as : Accepted s := (C54_language s).1 ⟨x, px⟩
      cases py : parseString t with
      | err e => exact .right as e ((C62_error t e).1 py)
      | panic => exact .rightPanic as ((C63_panic t).1 py)
      | ok y =>
        have at' : Accepted t := (C54_language t).1 ⟨y, py⟩
        have dx := (C55_denotes hf s x).1 px
        have dy := (C55_denotes hf t y).1 py
        obtain ⟨xl, xa, xb, xu, bx⟩ := bounds_of hf px
        obtain ⟨yl, ya, yb, yu, bz⟩ := bounds_of hf py
        show Compared _ _ _ _ _ _ (op x y)
        rw [hop px py bx bz]
        by_cases ho : s = c! ".."
        · rw [if_pos ho]; exact .opened ho at'
        rw [if_neg ho]
        cases hm : mine (xl, xu) with
        | none => exact .missing ho x y dx dy xl xu yl yu xa xb ya yb bx bz (.inl hm)
        | some p =>
          cases ht : theirs (yl, yu) with
          | none => exact .missing ho x y dx dy xl xu yl yu xa xb ya yb bx bz (.inr ht)
          | some q =>
            show Compared _ _ _ _ _ _ (.ok (holds p q))
            cases hh : holds p q with
            | true => exact .yes ho x y dx dy xl xu yl yu xa xb ya yb bx bz p q hm ht hh
            | false => exact .no ho x y dx dy xl xu yl yu xa xb ya yb bx bz p q hm ht (by rw [hh]; exact Bool.false_ne_true)
  · intro h
    have ok : ∀ {x y : EDTFDate}, parseString s = .ok x → parseString t = .ok y →
        (formatErr (parseString s)).bind (fun a => (formatErr (parseString t)).bind (fun b => op a b)) = op x y := by
      intro x y px py; rw [px, py]; rfl
    cases h with
    | left e h => rw [(C62_error s e).2 h]; rfl
    | leftPanic h => rw [(C63_panic s).2 h]; rfl
    | right hs e h =>
      obtain ⟨x, px⟩ := (C54_language s).2 hs
      rw [px, (C62_error t e).2 h]; rfl
    | rightPanic hs h =>
      obtain ⟨x, px⟩ := (C54_language s).2 hs
      rw [px, (C63_panic t).2 h]; rfl
    | opened hs ht =>
      subst hs
      obtain ⟨y, py⟩ := (C54_language t).2 ht
      obtain ⟨yl, ya, yb, yu, bz⟩ := bounds_of hf py
      obtain ⟨xl, xa, xb, xu, bx⟩ := bounds_of hf hopen
      rw [ok hopen py, hop hopen py bx bz, if_pos rfl]
    | missing hs x y hx hy xl xu yl yu a b c d bx bz h =>
      have px := (C55_denotes hf s x).2 hx
      rw [ok px ((C55_denotes hf t y).2 hy), hop px ((C55_denotes hf t y).2 hy) bx bz, if_neg hs]
      rcases h with h | h
      · rw [h]; rfl
      · rw [h]; cases mine (xl, xu) <;> rfl
    | yes hs x y hx hy xl xu yl yu a b c d bx bz p q hp hq h =>
      have px := (C55_denotes hf s x).2 hx
      rw [ok px ((C55_denotes hf t y).2 hy), hop px ((C55_denotes hf t y).2 hy) bx bz, if_neg hs, hp, hq]
      show Res.ok (holds p q) = _
      rw [h]
    | no hs x y hx hy xl xu yl yu a b c d bx bz p q hp hq h =>
      have px := (C55_denotes hf s x).2 hx
      rw [ok px ((C55_denotes hf t y).2 hy), hop px ((C55_denotes hf t y).2 hy) bx bz, if_neg hs, hp, hq]
      show Res.ok (holds p q) = _
      rw [Bool.eq_false_iff.2 h]

/-- C67: what IsAfter gives, for every pair of strings. -/
theorem C67_after (hf : DayCount f) (s t : Str) (r : Res Bool) : isAfter s t = r ↔ AfterOutcome f s t r := by
  have h := compared hf EDTFDate.after Prod.fst Prod.snd (fun p q => decide (q ≤ p)) (fun px py _ _ _ _ _ _ _ _ bx bz => after_bounds px py bx bz) s t r
  simp only [decide_eq_true_eq] at h
  exact h

/-- C67: what IsBefore gives, for every pair of strings. -/
theorem C67_before (hf : DayCount f) (s t : Str) (r : Res Bool) : isBefore s t = r ↔ BeforeOutcome f s t r := by
  have h := compared hf EDTFDate.before Prod.snd Prod.fst (fun p q => decide (p ≤ q)) (fun px py _ _ _ _ _ _ _ _ bx bz => before_bounds px py bx bz) s t r
  simp only [decide_eq_true_eq] at h
  exact h

/-- A string that cannot be read, on either side: the kind of its error is lost. -/
example : AfterOutcome (fun y m d => unixDay y m d) (c! "2004") (c! "-199X/2004") (.err .plain) := (C67_after dayCount_unixDay _ _ _).1 rfl
/-- The first string panics: so does the comparison. -/
example : AfterOutcome (fun y m d => unixDay y m d) (c! "1950S5") (c! "2004") .panic := (C67_after dayCount_unixDay _ _ _).1 rfl
/-- Nothing is known about the end of the second date. -/
example : isAfter (c! "2010") (c! "2004/..") = .err noBound ∧ isBefore (c! "2010") (c! "../2004") = .err noBound := ⟨rfl, rfl⟩
/-- Open is not after a date without an end; a date is not comparable with open. -/
example : isAfter (c! "..") (c! "2004/..") = .ok false ∧ isAfter (c! "2004") (c! "..") = .err noBound := ⟨rfl, rfl⟩
/-- Two instants at the same second are after one another. -/
example : AfterOutcome (fun y m d => unixDay y m d) (c! "1985-04-12T23:20:30Z") (c! "1985-04-12T23:20:30Z") (.ok true) := (C67_after dayCount_unixDay _ _ _).1 rfl

/-- C67: what IsBetween gives, for all three strings. -/
theorem C67_between (hf : DayCount f) (s i c : Str) (r : Res Bool) : isBetween s i c = r ↔ BetweenOutcome f s i c r := by
  have key : ∀ r, BetweenOutcome f s i c r → isBetween s i c = r := by
    intro r h
    unfold isBetween
    cases h with
    | beforeError e h => rw [(C67_before hf s i _).2 h]; rfl
    | beforePanic h => rw [(C67_before hf s i _).2 h]; rfl
    | early h => rw [(C67_before hf s i _).2 h]; rfl
    | openEnd h hc => rw [(C67_before hf s i _).2 h, hc]; rfl
    | afterError h hc e ha =>
      rw [(C67_before hf s i _).2 h, (C67_after hf s c _).2 ha]
      simp only [wrapErr, Res.ok_bind, Bool.false_eq_true, if_false]
      rw [if_pos (show c ≠ OPEN from hc)]; rfl
    | afterPanic h hc ha =>
      rw [(C67_before hf s i _).2 h, (C67_after hf s c _).2 ha]
      simp only [wrapErr, Res.ok_bind, Bool.false_eq_true, if_false]
      rw [if_pos (show c ≠ OPEN from hc)]; rfl
    | after h hc b ha =>
      rw [(C67_before hf s i _).2 h, (C67_after hf s c _).2 ha]
      simp only [wrapErr, Res.ok_bind, Bool.false_eq_true, if_false]
      rw [if_pos (show c ≠ OPEN from hc)]
      cases b <;> rfl
  refine ⟨?_, key r⟩
  rintro rfl
  have hb := (C67_before hf s i _).1 rfl
  have ha := (C67_after hf s c _).1 rfl
  suffices ∃ r, BetweenOutcome f s i c r by
    obtain ⟨r, h⟩ := this
    rw [key r h]
    exact h
  revert hb ha
  generalize isBefore s i = x
  generalize isAfter s c = y
  intro hb ha
  cases x with
  | err e => exact ⟨_, .beforeError e hb⟩
  | panic => exact ⟨_, .beforePanic hb⟩
  | ok b =>
    cases b with
    | true => exact ⟨_, .early hb⟩
    | false =>
      by_cases hc : c = c! ".."
      · exact ⟨_, .openEnd hb hc⟩
      cases y with
      | err e => exact ⟨_, .afterError hb hc e ha⟩
      | panic => exact ⟨_, .afterPanic hb hc ha⟩
      | ok b => exact ⟨_, .after hb hc b ha⟩

/-- The error of a bound, wrapped once more; a date that is too early, although the cessation cannot be read; an open cessation. -/
example : isBetween (c! "2010") (c! "../2004") (c! "2020") = .err (.wrapped noBound) ∧ isBetween (c! "1990") (c! "2004") (c! "junk") = .ok false ∧
    isBetween (c! "2010") (c! "2004") (c! "junk") = .err (.wrapped .plain) ∧ isBetween (c! "2010") (c! "2004") (c! "..") = .ok true := ⟨rfl, rfl, rfl, rfl⟩

/-- C67: the Unix ranges of every string. -/
theorem C67_ranges (hf : DayCount f) (s : Str) (r : Res (Option Unix.Range)) : Unix.deriveRanges s = r ↔ RangesOutcome f s r := by
  have hv : Unix.isValid s = true ↔ ¬ NoRange s := by
    unfold Unix.isValid isOpenStr isUnknownStr isUnspecifiedStr NoRange
    simp only [OPEN, OPEN_2012, UNKNOWN, UNKNOWN_2012, UNSPECIFIED, UNSPECIFIED_2012]
    by_cases h1 : s = c! ".." <;> by_cases h2 : s = c! "open" <;> by_cases h3 : s = [] <;>
      by_cases h4 : s = c! "uuuu" <;> simp [h1, h2, h3, h4]
  have key : ∀ {d : EDTFDate}, ¬ NoRange s → parseString s = .ok d → ∀ {sl su el eu : Option Int}, Bounds d sl su el eu →
      Unix.deriveRanges s = .ok (match sl, su, el, eu with | some a, some b, some c, some e => some ⟨⟨a, e⟩, ⟨b, c⟩⟩ | _, _, _, _ => none) := by
    intro d hn hp sl su el eu hb
    obtain ⟨s', e', a, b, c, z, h1, h2, t1, t2, t3, t4⟩ := hb
    unfold Unix.deriveRanges
    rw [hv.2 hn]
    simp only [Bool.not_true, Bool.false_eq_true, if_false, hp, wrapErr, Res.ok_bind, h1, h2, Res.deref_some, t1, t2, t3, t4]
    cases sl <;> cases su <;> cases el <;> cases eu <;> rfl
  have fails : ∀ {q : Res EDTFDate}, ¬ NoRange s → parseString s = q → (∀ d, q ≠ .ok d) →
      Unix.deriveRanges s = (wrapErr q).bind (fun _ => .ok none) := by
    intro q hn hq hd
    unfold Unix.deriveRanges
    rw [hv.2 hn, hq]
    cases q with
    | ok d => exact absurd rfl (hd d)
    | err e => rfl
    | panic => rfl
  constructor
  · rintro rfl
    by_cases hn : NoRange s
    · have : Unix.deriveRanges s = .ok none := by
        unfold Unix.deriveRanges
        rw [Bool.eq_false_iff.2 (fun h => hv.1 h hn)]; rfl
      rw [this]; exact .skipped hn
    cases hp : parseString s with
    | err e => rw [fails hn hp (by intro d h; cases h)]; exact .error hn e ((C62_error s e).1 hp)
    | panic => rw [fails hn hp (by intro d h; cases h)]; exact .panic hn ((C63_panic s).1 hp)
    | ok d =>
      obtain ⟨sl, su, el, eu, hb⟩ := bounds_of hf hp
      rw [key hn hp hb]
      have hd := (C55_denotes hf s d).1 hp
      cases sl with
      | none => exact .missing hn d hd _ _ _ _ hb (.inl rfl)
      | some a =>
        cases su with
        | none => exact .missing hn d hd _ _ _ _ hb (.inr (.inl rfl))
        | some b =>
          cases el with
          | none => exact .missing hn d hd _ _ _ _ hb (.inr (.inr (.inl rfl)))
          | some c =>
            cases eu with
            | none => exact .missing hn d hd _ _ _ _ hb (.inr (.inr (.inr rfl)))
            | some e => exact .found hn d hd a b c e hb
  · intro h
    cases h with
    | skipped h =>
      unfold Unix.deriveRanges
      rw [Bool.eq_false_iff.2 (fun h' => hv.1 h' h)]; rfl
    | error h e he => rw [fails h ((C62_error s e).2 he) (by intro d h; cases h)]; rfl
    | panic h he => rw [fails h ((C63_panic s).2 he) (by intro d h; cases h)]; rfl
    | missing h d hd sl su el eu hb hn =>
      rw [key h ((C55_denotes hf s d).2 hd) hb]
      rcases hn with rfl | rfl | rfl | rfl
      · rfl
      · cases sl <;> rfl
      · cases sl <;> cases su <;> rfl
      · cases sl <;> cases su <;> cases el <;> rfl
    | found h d hd a b c e hb => rw [key h ((C55_denotes hf s d).2 hd) hb]

/-- A string that cannot be read, with its error inside; a string for which no range is looked for though it cannot be read; a panic. -/
example : Unix.deriveRanges (c! "-199X/2004") = .err (.wrapped .plain) ∧ Unix.deriveRanges (c! "uuuu") = .ok none ∧
    Unix.deriveRanges (c! "1950S5") = .panic := ⟨rfl, rfl, rfl⟩

/-- C67: one outcome for every pair of strings, whatever the numbering of the days. -/
theorem C67_unique {g : Int → Nat → Nat → Int} (hf : DayCount f) (hg : DayCount g) {s t : Str} :
    (∃ r, AfterOutcome f s t r) ∧ (∃ r, BeforeOutcome f s t r) ∧
    (∀ r r', AfterOutcome f s t r → AfterOutcome g s t r' → r = r') ∧ (∀ r r', BeforeOutcome f s t r → BeforeOutcome g s t r' → r = r') := by
  refine ⟨⟨_, (C67_after hf s t _).1 rfl⟩, ⟨_, (C67_before hf s t _).1 rfl⟩, ?_, ?_⟩
  · intro r r' h h'; rw [← (C67_after hf s t r).2 h, ← (C67_after hg s t r').2 h']
  · intro r r' h h'; rw [← (C67_before hf s t r).2 h, ← (C67_before hg s t r').2 h']

example : ∃ r, AfterOutcome U (c! "1985") (c! "hello") r := ⟨_, (C67_after dayCount_unixDay _ _ _).1 rfl⟩

/-! ### C68 -/

theorem shape_ne {e : Endpoint} (h : e.shape) : e.text ≠ [] := by
  obtain ⟨⟨neg, yy, tl⟩, qy, qm, qd⟩ := e
  obtain ⟨⟨hl, -⟩, -⟩ := h
  simp only at hl
  intro e
  have := congrArg List.length e
  cases tl <;> cases neg <;> cases qy <;> simp [Endpoint.text, Deco.text, hl] at this

theorem range_reads {t : Str} {R : DateRange} (h : RangeOf f t R) : t = [] ∨ Reads t := by
  cases h with
  | absent => exact .inl rfl
  | date e h y1 m1 d1 y2 m2 d2 hr => exact .inr ⟨e, ⟨h, y1, y2, m1, m2, d1, d2, hr⟩, rfl⟩

theorem span_reads {t : Str} {S E : DateRange} (h : SpanOf f t S E) : Reads t := by
  cases h with
  | date e h y1 m1 d1 y2 m2 d2 hr => exact ⟨e, ⟨h, y1, y2, m1, m2, d1, d2, hr⟩, rfl⟩

/-- The two bounds of a range. -/
def Edges (R : DateRange) (lo up : Option Int) : Prop :=
  ∃ a b : Date, R.lower = some a ∧ R.upper = some b ∧ a.timestamp = lo ∧ b.timestamp = up

theorem ends_flagged {p : Prec} {R : DateRange} {lo up : Option Int} (h : Edges R lo up) : Edges (flagged p R) lo up := by
  obtain ⟨a, b, h1, h2, h3, h4⟩ := h
  refine ⟨{ a with inclusivity := p }, { b with inclusivity := p }, ?_, ?_, h3, h4⟩
  · simp [flagged, h1]
  · simp [flagged, h2]

theorem range_ends {t : Str} {R : DateRange} (h : RangeOf f t R) :
    (t = [] ∧ Edges R none none) ∨ (t ≠ [] ∧ ∃ lo up, Edges R (some lo) (some up)) := by
  cases h with
  | absent => exact .inl ⟨rfl, _, _, rfl, rfl, rfl, rfl⟩
  | date e h y1 m1 d1 y2 m2 d2 hr => exact .inr ⟨shape_ne h, _, _, _, _, rfl, rfl, rfl, rfl⟩

theorem span_ends {t : Str} {S E : DateRange} (h : SpanOf f t S E) :
    t ≠ [] ∧ ∃ a b c d, Edges S (some a) (some b) ∧ Edges E (some c) (some d) := by
  cases h with
  | date e h y1 m1 d1 y2 m2 d2 hr =>
    refine ⟨shape_ne h, ?_⟩
    by_cases k : y1 = y2 ∧ m1 = m2 ∧ d1 = d2
    · simp only [if_pos k]
      exact ⟨_, _, _, _, ⟨_, _, rfl, rfl, rfl, rfl⟩, ⟨_, _, rfl, rfl, rfl, rfl⟩⟩
    · simp only [if_neg k]
      exact ⟨_, _, _, _, ⟨_, _, rfl, rfl, rfl, rfl⟩, ⟨_, _, rfl, rfl, rfl, rfl⟩⟩

theorem textLe_self (t : Str) : TextLe t t := by
  induction t with
  | nil => exact .nil _
  | cons c t ih => exact .eq c t t ih

theorem textLe_nil {t : Str} (h : TextLe t []) : t = [] := by cases h; rfl

theorem extremes_nil {ms : List Str} {a b : Str} (h : Extremes ms a b) : a = [] ↔ [] ∈ ms := by
  constructor
  · rintro rfl; exact h.1
  · intro k; exact textLe_nil (h.2.2 _ k).1

theorem extremes_top {ms : List Str} {a b t : Str} (h : Extremes ms a b) (ht : t ∈ ms) (hn : t ≠ []) : b ≠ [] := by
  rintro rfl
  exact hn (textLe_nil (h.2.2 _ ht).2)

/-- The bounds of a set of which one member is a date. -/
theorem setSpan_ends {p : Prec} {ms : List Str} {so eo : Bool} {S E : DateRange} (h : SetSpan f p ms so eo S E) {t : Str} (ht : t ∈ ms) (hn : t ≠ []) :
    ∃ sl su el eu, Edges S sl su ∧ Edges E el eu ∧ (sl = none ↔ so = true ∨ [] ∈ ms) ∧ (eu = none ↔ eo = true ∧ so = false) ∧
      (su = none ∨ el = none → sl = none ∨ eu = none) ∧ MembersOk ms := by
  have opened : ∀ x, Edges (openRange x) none none := fun x => ⟨_, _, rfl, rfl, rfl, rfl⟩
  cases h with
  | one r h S E hs =>
    obtain ⟨hr, a, b, c, d, e1, e2⟩ := span_ends hs
    refine ⟨_, _, _, _, ends_flagged e1, ends_flagged e2, ?_, by simp, by simp, r, r, h.1, h.2.1, h.2.2, span_reads hs, .inr (span_reads hs)⟩
    simp [← extremes_nil h, hr]
  | closed a b h hab R S hR hS =>
    have hb := extremes_top h ht hn
    obtain ⟨-, c, d, e2⟩ := (range_ends hS).resolve_left (fun k => hb k.1)
    have mo : MembersOk ms := ⟨a, b, h.1, h.2.1, h.2.2, (range_reads hS).resolve_left hb, range_reads hR⟩
    rcases range_ends hR with ⟨ha, e1⟩ | ⟨ha, x, y, e1⟩
    · exact ⟨_, _, _, _, ends_flagged e1, ends_flagged e2, by simp [← extremes_nil h, ha], by simp, by simp, mo⟩
    · exact ⟨_, _, _, _, ends_flagged e1, ends_flagged e2, by simp [← extremes_nil h, ha], by simp, by simp, mo⟩
  | upTo1 r h R hR =>
    subst h
    obtain rfl := List.mem_singleton.1 ht
    obtain ⟨-, c, d, e2⟩ := (range_ends hR).resolve_left (fun k => hn k.1)
    exact ⟨_, _, _, _, opened _, ends_flagged e2, by simp, by simp, by simp, t, t, ht, ht,
      fun u hu => by rw [List.mem_singleton.1 hu]; exact ⟨textLe_self _, textLe_self _⟩, (range_reads hR).resolve_left hn, range_reads hR⟩
  | onFrom1 r h R hR =>
    subst h
    obtain rfl := List.mem_singleton.1 ht
    obtain ⟨-, c, d, e2⟩ := (range_ends hR).resolve_left (fun k => hn k.1)
    exact ⟨_, _, _, _, ends_flagged e2, opened _, by simpa using hn, by simp, by simp, t, t, ht, ht,
      fun u hu => by rw [List.mem_singleton.1 hu]; exact ⟨textLe_self _, textLe_self _⟩, (range_reads hR).resolve_left hn, range_reads hR⟩
  | upTo a b h h2 R S hR hS =>
    have hb := extremes_top h ht hn
    obtain ⟨-, c, d, c', d', k1, k2, k3, k4⟩ := (range_ends hS).resolve_left (fun k => hb k.1)
    have mo : MembersOk ms := ⟨a, b, h.1, h.2.1, h.2.2, (range_reads hS).resolve_left hb, range_reads hR⟩
    have : ∃ lo up, Edges R lo up := by
      rcases range_ends hR with ⟨ha, e1⟩ | ⟨ha, x, y, e1⟩
      · exact ⟨_, _, e1⟩
      · exact ⟨_, _, e1⟩
    obtain ⟨lo, up, a', b', l1, l2, l3, l4⟩ := this
    exact ⟨none, none, lo, some d, opened _, ends_flagged ⟨a', d', l1, k2, l3, k4⟩, by simp, by simp, by simp, mo⟩
  | onFrom a b h h2 R S hR hS =>
    have hb := extremes_top h ht hn
    obtain ⟨-, c, d, c', d', k1, k2, k3, k4⟩ := (range_ends hS).resolve_left (fun k => hb k.1)
    have mo : MembersOk ms := ⟨a, b, h.1, h.2.1, h.2.2, (range_reads hS).resolve_left hb, range_reads hR⟩
    rcases range_ends hR with ⟨ha, a', b', l1, l2, l3, l4⟩ | ⟨ha, x, y, a', b', l1, l2, l3, l4⟩
    · exact ⟨_, _, none, none, ends_flagged ⟨a', d', l1, k2, l3, k4⟩, opened _, by simp [← extremes_nil h, ha], by simp, by simp, mo⟩
    · exact ⟨_, _, none, none, ends_flagged ⟨a', d', l1, k2, l3, k4⟩, opened _, by simp [← extremes_nil h, ha], by simp, by simp, mo⟩
  | both a b h h2 R S hR hS =>
    have hb := extremes_top h ht hn
    obtain ⟨-, c, d, c', d', k1, k2, k3, k4⟩ := (range_ends hS).resolve_left (fun k => hb k.1)
    have mo : MembersOk ms := ⟨a, b, h.1, h.2.1, h.2.2, (range_reads hS).resolve_left hb, range_reads hR⟩
    exact ⟨none, some d, none, some d, ⟨_, d', rfl, k2, rfl, k4⟩, ⟨_, d', rfl, k2, rfl, k4⟩, by simp, by simp, by simp, mo⟩

theorem bounds_edges {S E : DateRange} {sl su el eu : Option Int} (h1 : Edges S sl su) (h2 : Edges E el eu) (s : Str) (l : Int) (t : Str) :
    Bounds ⟨some S, some E, s, l, t⟩ sl su el eu := by
  obtain ⟨a, b, k1, k2, k3, k4⟩ := h1
  obtain ⟨c, d, l1, l2, l3, l4⟩ := h2
  refine ⟨S.edtf, E.edtf, a, b, c, d, ?_, ?_, k3, k4, l3, l4⟩
  · rw [← k1, ← k2]
  · rw [← l1, ← l2]

theorem chunk_member {cs : List Chunk} (h : ChunksOk cs) : ∃ t ∈ cs.flatMap Chunk.members, t ≠ [] := by
  obtain ⟨h1, ⟨c, hc, hf⟩, -⟩ := h
  have hm : c ∈ cs := List.mem_of_mem_head? hc
  have ho := h1 c hm
  have : ∃ t ∈ c.members, t ≠ [] := by
    cases c with
    | run r => exact ⟨_, List.mem_singleton.2 rfl, runText_ne_nil ho⟩
    | pair a b => exact ⟨_, List.mem_cons_self, runText_ne_nil ho.1⟩
    | upTo r => exact ⟨_, List.mem_singleton.2 rfl, runText_ne_nil ho⟩
    | onFrom r => exact ⟨_, List.mem_singleton.2 rfl, runText_ne_nil ho⟩
    | blank => cases hf
    | dots => cases hf
  obtain ⟨t, ht, hn⟩ := this
  exact ⟨t, List.mem_flatMap.2 ⟨c, hm, ht⟩, hn⟩

theorem chunk_blank {cs : List Chunk} (h : ChunksOk cs) :
    (cs.any Chunk.opensStart = true ∨ [] ∈ cs.flatMap Chunk.members) ↔ (cs.any Chunk.opensStart = true ∨ .blank ∈ cs) := by
  constructor
  · rintro (h' | h')
    · exact .inl h'
    · obtain ⟨c, hc, hm⟩ := List.mem_flatMap.1 h'
      have ho := h.1 c hc
      cases c with
      | run r => exact absurd (List.mem_singleton.1 hm).symm (runText_ne_nil ho)
      | pair a b =>
        rcases List.mem_cons.1 hm with e | e
        · exact absurd e.symm (runText_ne_nil ho.1)
        · exact absurd (List.mem_singleton.1 e).symm (runText_ne_nil ho.2)
      | upTo r => exact absurd (List.mem_singleton.1 hm).symm (runText_ne_nil ho)
      | onFrom r => exact absurd (List.mem_singleton.1 hm).symm (runText_ne_nil ho)
      | blank => exact .inr hc
      | dots => exact .inl (List.any_eq_true.2 ⟨_, hc, rfl⟩)
  · rintro (h' | h')
    · exact .inl h'
    · exact .inr (List.mem_flatMap.2 ⟨_, h', List.mem_singleton.2 rfl⟩)

/-- A record whose four bounds are all there. -/
def Full (d : EDTFDate) : Prop := ∃ a b c e, Bounds d (some a) (some b) (some c) (some e)

theorem full_spec {s : Str} {d : EDTFDate} (h : Full d) : ∃ sl su el eu, Bounds d sl su el eu ∧ (sl = none → NoLower s) ∧ (eu = none → NoUpper s) ∧
    (su = none ∨ el = none → sl = none ∨ eu = none) := by
  obtain ⟨a, b, c, e, h⟩ := h
  exact ⟨_, _, _, _, h, by simp, by simp, by simp⟩

theorem range_full {x : Date0} {t : Str} {u a p : Prec} : ∃ lo up, Edges (x.range f t u a p) (some lo) (some up) := ⟨_, _, _, _, rfl, rfl, rfl, rfl⟩

theorem span_full {t : Str} {S E : DateRange} (h : SpanOf f t S E) (s : Str) (l : Int) (q : Str) : Full ⟨some S, some E, s, l, q⟩ := by
  obtain ⟨-, a, b, c, d, e1, e2⟩ := span_ends h
  exact ⟨a, b, c, d, bounds_edges e1 e2 s l q⟩

theorem result_full {x : Date0} {t t' l : Str} {n : Int} {u a : Prec} : Full (x.result f t t' n l u a) := by
  obtain ⟨neg, y, tl⟩ := x
  cases tl <;> exact ⟨_, _, _, _, _, _, _, _, _, _, rfl, rfl, rfl, rfl, rfl, rfl⟩

theorem months_full {t l : Str} {n : Int} {y1 y2 : Int} {m1 m2 : Nat} : Full (monthsResult f t n l y1 m1 y2 m2) :=
  ⟨_, _, _, _, _, _, _, _, _, _, rfl, rfl, rfl, rfl, rfl, rfl⟩

/-- A bound is absent only in the strings of the specification. -/
theorem denotes_bounds {s : Str} {d : EDTFDate} (h : Denotes f s d) :
    ∃ sl su el eu, Bounds d sl su el eu ∧ (sl = none → NoLower s) ∧ (eu = none → NoUpper s) ∧
      (su = none ∨ el = none → sl = none ∨ eu = none) := by
  cases h with
  | unknown => exact ⟨none, none, none, none, ⟨_, _, _, _, _, _, rfl, rfl, rfl, rfl, rfl, rfl⟩, fun _ => .unknown, fun _ => .unknown, fun _ => .inl rfl⟩
  | opened => exact ⟨none, none, none, none, ⟨_, _, _, _, _, _, rfl, rfl, rfl, rfl, rfl, rfl⟩, fun _ => .opened, fun _ => .opened, fun _ => .inl rfl⟩
  | date x h => exact full_spec result_full
  | time neg y m d hh mi ss z hy V k1 k2 k3 hz y' m' d' hh' mi' ss' V' k1' k2' k3' e =>
    exact full_spec ⟨_, _, _, _, _, _, _, _, _, _, rfl, rfl, rfl, rfl, rfl, rfl⟩
  | interval a b ha hb ra rb R S hR hS =>
    obtain ⟨-, x, y, e1⟩ := (range_ends hR).resolve_left (fun k => shape_ne ha k.1)
    obtain ⟨-, z, w, e2⟩ := (range_ends hS).resolve_left (fun k => shape_ne hb k.1)
    exact full_spec ⟨x, y, z, w, bounds_edges e1 e2 _ _ _⟩
  | startless l hl x h =>
    obtain ⟨lo, up, e⟩ := range_full (f := f) (x := x) (t := x.text) (u := 0) (a := 0) (p := Prec.YEAR)
    have hb : Edges (l.range f) none none := by
      rcases hl with rfl | rfl <;> exact ⟨_, _, rfl, rfl, rfl, rfl⟩
    exact ⟨none, none, some lo, some up, bounds_edges hb e _ _ _,
      fun _ => .startless _ (by rcases hl with rfl | rfl; exact .inr rfl; exact .inl rfl) x h, by simp, by simp⟩
  | endless neg n h r hr =>
    obtain ⟨lo, up, e⟩ := range_full (f := f) (x := ⟨neg, n, .none⟩) (t := (⟨neg, n, .none⟩ : Date0).text) (u := 0) (a := 0) (p := Prec.YEAR)
    have hb : Edges (r.range f) none none := by
      rcases hr with rfl | rfl <;> exact ⟨_, _, rfl, rfl, rfl, rfl⟩
    exact ⟨some lo, some up, none, none, bounds_edges e hb _ _ _, by simp,
      fun _ => .endless neg n h _ (by rcases hr with rfl | rfl; exact .inr rfl; exact .inl rfl), by simp⟩
  | qualifiedYear neg n h q hq => exact full_spec result_full
  | group e h hn hX hl he S E hs => exact full_spec (span_full hs _ _ _)
  | individual e h hn hX hr hl S E hs => exact full_spec (span_full hs _ _ _)
  | unspecified x h hn hX S E hs => exact full_spec (span_full hs _ _ _)
  | month neg n m hn h1 h2 y hv hy t ht => exact full_spec months_full
  | season neg n hn z y hv hy hz => exact full_spec months_full
  | seasonName z w t1 t2 n hw h1 h2 hn hz => exact full_spec months_full
  | letter neg n h => exact full_spec result_full
  | exponential yc ec hy he neg ms es hm hes b n h1 h2 hv => exact full_spec result_full
  | significant t v h ds hd a b hk =>
    obtain ⟨x, y, e1⟩ := range_full (f := f) (x := a) (t := a.text) (u := 0) (a := 0) (p := Prec.YEAR)
    obtain ⟨z, w, e2⟩ := range_full (f := f) (x := b) (t := b.text) (u := 0) (a := 0) (p := Prec.YEAR)
    exact full_spec ⟨x, y, z, w, bounds_edges e1 e2 _ _ _⟩
  | grouping n hn g hg => exact full_spec ⟨_, _, _, _, _, _, _, _, _, _, rfl, rfl, rfl, rfl, rfl, rfl⟩
  | set o c hb cs hc S E hm =>
    obtain ⟨t, ht, hn⟩ := chunk_member hc
    obtain ⟨sl, su, el, eu, e1, e2, i1, i2, i3, mo⟩ := setSpan_ends hm ht hn
    refine ⟨sl, su, el, eu, bounds_edges e1 e2 _ _ _, ?_, ?_, i3⟩
    · intro h; exact .set o c hb cs hc mo ((chunk_blank hc).1 (i1.1 h))
    · intro h; exact .set o c hb cs hc mo (i2.1 h).1 (i2.1 h).2

/-- C68: the strings without a lower bound. -/
theorem C68_lower (hf : DayCount f) (s : Str) :
    (∃ d su el eu, parseString s = .ok d ∧ Bounds d none su el eu) ↔ NoLower s := by
  simp only [C55_denotes hf]
  constructor
  · rintro ⟨d, su, el, eu, hd, hb⟩
    obtain ⟨sl', su', el', eu', hb', h, -⟩ := denotes_bounds hd
    exact h (bounds_unique hb hb').1.symm
  · intro h
    cases h with
    | unknown => exact ⟨_, _, _, _, .unknown, _, _, _, _, _, _, rfl, rfl, rfl, rfl, rfl, rfl⟩
    | opened => exact ⟨_, _, _, _, .opened, _, _, _, _, _, _, rfl, rfl, rfl, rfl, rfl, rfl⟩
    | startless l hl x h =>
      obtain ⟨lo, up, e⟩ := range_full (f := f) (x := x) (t := x.text) (u := 0) (a := 0) (p := Prec.YEAR)
      rcases hl with rfl | rfl
      · exact ⟨_, _, _, _, .startless .unknown (.inr rfl) x h, bounds_edges (sl := none) (su := none) ⟨unknownEnd, unknownEnd, rfl, rfl, rfl, rfl⟩ e _ _ _⟩
      · exact ⟨_, _, _, _, .startless .opened (.inl rfl) x h, bounds_edges (sl := none) (su := none) ⟨openEnd, openEnd, rfl, rfl, rfl, rfl⟩ e _ _ _⟩
    | set o c hb cs hc hm h =>
      obtain ⟨S, E, hs⟩ := set_denotes f (p := setFlag o) hc hm
      obtain ⟨t, ht, hn⟩ := chunk_member hc
      obtain ⟨sl, su, el, eu, e1, e2, i1, i2, i3, mo⟩ := setSpan_ends hs ht hn
      obtain rfl := i1.2 ((chunk_blank hc).2 h)
      exact ⟨_, _, _, _, .set o c hb cs hc S E hs, bounds_edges e1 e2 _ _ _⟩

/-- A set of years from 2003 has no lower bound if it ends with a comma or with a lone `..`. -/
example : NoLower (c! "{2003,2004,}") ∧ NoLower (c! "[2003,..]") ∧ ¬ NoLower (c! "{2003,2004..}") := by
  refine ⟨(C68_lower dayCount_unixDay _).1 ⟨_, _, _, _, rfl, ⟨_, _, _, _, _, _, rfl, rfl, rfl, rfl, rfl, rfl⟩⟩,
    (C68_lower dayCount_unixDay _).1 ⟨_, _, _, _, rfl, ⟨_, _, _, _, _, _, rfl, rfl, rfl, rfl, rfl, rfl⟩⟩, ?_⟩
  intro h
  obtain ⟨d, su, el, eu, hd, hb⟩ := (C68_lower dayCount_unixDay _).2 h
  cases hd
  obtain ⟨_, _, _, _, _, _, h1, h2, h3, -⟩ := hb
  cases h1
  cases h3

/-- C68: the strings without an upper bound. -/
theorem C68_upper (hf : DayCount f) (s : Str) :
    (∃ d sl su el, parseString s = .ok d ∧ Bounds d sl su el none) ↔ NoUpper s := by
  simp only [C55_denotes hf]
  constructor
  · rintro ⟨d, sl, su, el, hd, hb⟩
    obtain ⟨sl', su', el', eu', hb', -, h, -⟩ := denotes_bounds hd
    exact h (bounds_unique hb hb').2.2.2.symm
  · intro h
    cases h with
    | unknown => exact ⟨_, _, _, _, .unknown, _, _, _, _, _, _, rfl, rfl, rfl, rfl, rfl, rfl⟩
    | opened => exact ⟨_, _, _, _, .opened, _, _, _, _, _, _, rfl, rfl, rfl, rfl, rfl, rfl⟩
    | endless neg n h r hr =>
      obtain ⟨lo, up, e⟩ := range_full (f := f) (x := ⟨neg, n, .none⟩) (t := (⟨neg, n, .none⟩ : Date0).text) (u := 0) (a := 0) (p := Prec.YEAR)
      rcases hr with rfl | rfl
      · exact ⟨_, _, _, _, .endless neg n h .unknown (.inr rfl), bounds_edges (el := none) (eu := none) e ⟨unknownEnd, unknownEnd, rfl, rfl, rfl, rfl⟩ _ _ _⟩
      · exact ⟨_, _, _, _, .endless neg n h .opened (.inl rfl), bounds_edges (el := none) (eu := none) e ⟨openEnd, openEnd, rfl, rfl, rfl, rfl⟩ _ _ _⟩
    | set o c hb cs hc hm h1 h2 =>
      obtain ⟨S, E, hs⟩ := set_denotes f (p := setFlag o) hc hm
      obtain ⟨t, ht, hn⟩ := chunk_member hc
      obtain ⟨sl, su, el, eu, e1, e2, i1, i2, i3, mo⟩ := setSpan_ends hs ht hn
      obtain rfl := i2.2 ⟨h1, h2⟩
      exact ⟨_, _, _, _, .set o c hb cs hc S E hs, bounds_edges e1 e2 _ _ _⟩

/-- A set open on both sides has an upper bound. -/
example : NoUpper (c! "{2003,2004..}") ∧ ¬ NoUpper (c! "{..2003,2004..}") := by
  refine ⟨(C68_upper dayCount_unixDay _).1 ⟨_, _, _, _, rfl, ⟨_, _, _, _, _, _, rfl, rfl, rfl, rfl, rfl, rfl⟩⟩, ?_⟩
  intro h
  obtain ⟨d, sl, su, el, hd, hb⟩ := (C68_upper dayCount_unixDay _).2 h
  cases hd
  obtain ⟨_, _, _, _, _, _, h1, h2, -, -, -, h3⟩ := hb
  cases h2
  cases h3

/-- C68: the strings for which there are no Unix ranges. -/
theorem C68_ranges (s : Str) : Unix.deriveRanges s = .ok none ↔ NoRange s ∨ NoLower s ∨ NoUpper s := by
  rw [C67_ranges dayCount_unixDay]
  constructor
  · intro h
    cases h with
    | skipped h => exact .inl h
    | missing h d hd sl su el eu hb hn =>
      obtain ⟨sl', su', el', eu', hb', h1, h2, h3⟩ := denotes_bounds hd
      obtain ⟨rfl, rfl, rfl, rfl⟩ := bounds_unique hb hb'
      rcases hn with h | h | h | h
      · exact .inr (.inl (h1 h))
      · exact .inr ((h3 (.inl h)).imp h1 h2)
      · exact .inr ((h3 (.inr h)).imp h1 h2)
      · exact .inr (.inr (h2 h))
  · intro h
    by_cases hn : NoRange s
    · exact .skipped hn
    rcases h with h | h | h
    · exact .skipped h
    · obtain ⟨d, su, el, eu, hd, hb⟩ := (C68_lower dayCount_unixDay s).2 h
      exact .missing hn d ((C55_denotes dayCount_unixDay s d).1 hd) _ _ _ _ hb (.inl rfl)
    · obtain ⟨d, sl, su, el, hd, hb⟩ := (C68_upper dayCount_unixDay s).2 h
      exact .missing hn d ((C55_denotes dayCount_unixDay s d).1 hd) _ _ _ _ hb (.inr (.inr (.inr rfl)))

/-- An interval without an end, a set, and a set with all four bounds. -/
example : NoRange (c! "2004/..") ∨ NoLower (c! "2004/..") ∨ NoUpper (c! "2004/..") := (C68_ranges _).1 rfl
example : Unix.deriveRanges (c! "{2003,2005}") = .ok (some ⟨⟨1041379200, 1136073599⟩, ⟨1072915199, 1104537600⟩⟩) := rfl

end EDTF
