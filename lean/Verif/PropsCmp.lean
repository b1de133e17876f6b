/- C34-C38: comparison and the derived Unix ranges. -/
import Verif.PropsGeneral
import Verif.PropsWf
import Verif.Cmp
namespace EDTF
open Spec

/-- A date with both bounds, `lo` and `up`. -/
def HasBounds (d : EDTFDate) (lo up : Int) : Prop := d.lower = .ok lo ∧ d.upper = .ok up

/-! ### C34 -/

/-- The instants `time.Time` can tell apart in the right order: the others wrap around. -/
def InTime (t : Int) : Prop := -2 ^ 63 ≤ t ∧ t < 2 ^ 63 - 62135596800

theorem goSeconds_eq {t : Int} (h : InTime t) : goSeconds t = t + 62135596800 := by
  unfold InTime at h
  exact wrap64_id (by omega) (by omega)

/-- C34 for arbitrary date values: After and Before compare the bounds.  (The
source string must not be one of the two spellings of "open", and the bounds must
not be of the last two thousand years before 2^63; for parsed dates
both follow from having bounds, see `C34_parsed`.) -/
theorem C34_bounds {x y : EDTFDate} {xl xu yl yu : Int} (hx : HasBounds x xl xu) (hy : HasBounds y yl yu)
    (ho : isOpenStr x.edtf = false) (h1 : InTime xl) (h2 : InTime xu) (h3 : InTime yl) (h4 : InTime yu) :
    x.after y = .ok (decide (yu ≤ xl)) ∧ x.before y = .ok (decide (xu ≤ yl)) := by
  constructor
  · simp only [EDTFDate.after, ho, hx.1, hy.2, wrapErr, Res.ok_bind, Bool.false_eq_true, if_false, goSeconds_eq h1, goSeconds_eq h4]
    by_cases h : yu > xl
    · rw [if_pos (by omega), decide_eq_false (by omega)]
    · rw [if_neg (by omega), decide_eq_true (by omega)]
  · simp only [EDTFDate.before, ho, hx.2, hy.1, wrapErr, Res.ok_bind, Bool.false_eq_true, if_false, goSeconds_eq h2, goSeconds_eq h3]
    by_cases h : yl < xu
    · rw [if_pos (by omega), decide_eq_false (by omega)]
    · rw [if_neg (by omega), decide_eq_true (by omega)]

example : ∃ x y xl xu yl yu, parseString (c! "1985-04/1985-06") = .ok x ∧ parseString (c! "-0044-03-15") = .ok y ∧ HasBounds x xl xu ∧ HasBounds y yl yu ∧
    isOpenStr x.edtf = false ∧ InTime xl ∧ InTime xu ∧ InTime yl ∧ InTime yu :=
  ⟨_, _, _, _, _, _, rfl, rfl, ⟨rfl, rfl⟩, ⟨rfl, rfl⟩, rfl, by unfold InTime; decide +kernel, by unfold InTime; decide +kernel,
    by unfold InTime; decide +kernel, by unfold InTime; decide +kernel⟩

/-- The hypothesis about the bounds is needed: the last second of all is before the Unix epoch. -/
theorem C34_wraps : ∃ x y : EDTFDate, HasBounds x (2 ^ 63 - 1) (2 ^ 63 - 1) ∧ HasBounds y 0 0 ∧
    x.after y = .ok false ∧ x.before y = .ok true :=
  ⟨⟨some ⟨[], some { timestamp := some (2 ^ 63 - 1) }, none⟩, some ⟨[], none, some { timestamp := some (2 ^ 63 - 1) }⟩, [], 0, []⟩,
   ⟨some ⟨[], some { timestamp := some 0 }, none⟩, some ⟨[], none, some { timestamp := some 0 }⟩, [], 0, []⟩, by
    unfold HasBounds; decide +kernel⟩

theorem dated_time {y : Int} {m d hh mi ss : Nat} (V : Valid y m d) (y1 : -10000 ≤ y) (y2 : y ≤ 10000) (h1 : hh < 24) (h2 : mi < 60)
    (h3 : ss < 60) : InTime (86400 * U y m d + (3600 * hh + 60 * mi + ss : Nat)) := by
  have lo := unixDay_le (show Valid (-10000) 1 1 by decide) V (show dayLe (-10000) 1 1 y m d by
    obtain ⟨a, _, c, _⟩ := V
    unfold dayLe; omega)
  have hi := unixDay_le V (show Valid 10000 12 31 by decide) (show dayLe y m d 10000 12 31 by
    obtain ⟨_, b, _, e⟩ := V
    have := monthLen_le y m
    unfold dayLe; omega)
  have e1 : unixDay (-10000) (1 : Nat) (1 : Nat) = -4371953 := by decide
  have e2 : unixDay 10000 (12 : Nat) (31 : Nat) = 2933262 := by decide
  have e : U y m d = unixDay y m d := rfl
  unfold InTime
  omega

/-- A boundary whose timestamp, if it has one, compares well. -/
def Tm (b : Date) : Prop := ∀ t, b.timestamp = some t → InTime t

theorem bd_time {b : Date} (h : Bd b) : Tm b := by
  intro t ht
  rcases h with ⟨y, m, d, hh, mi, ss, u, a, p, i, V, hy, h1, h2, h3, rfl⟩ | ⟨i, rfl⟩ | ⟨i, rfl⟩
  · injection ht with ht
    rw [← ht]
    exact dated_time V (by omega) (by omega) h1 h2 h3
  · cases ht
  · cases ht

theorem parsed_time {s : Str} {d : EDTFDate} (h : parseString s = .ok d) : AllB Tm d.start d.stop := by
  rcases parse_shape h with h | ⟨y, m, dd, hh, mi, ss, V, h1, h2, h3, h4, h5, rfl⟩
  · exact allB_mono (fun b => bd_time) h
  · have k : Tm { dated U y m dd hh mi ss 0 0 0 with ymd := none } := by
      intro t ht
      injection ht with ht
      rw [← ht]
      exact dated_time V h4 h5 h1 h2 h3
    exact ⟨_, _, _, _, _, _, rfl, rfl, k, k, k, k⟩

theorem lower_time {d : EDTFDate} (h : AllB Tm d.start d.stop) {t : Int} (ht : d.lower = .ok t) : InTime t := by
  obtain ⟨ea, eb, al, au, bl, bu, h1, h2, k1, k2, k3, k4⟩ := h
  unfold EDTFDate.lower at ht
  simp only [h1, Res.deref_some, Res.ok_bind] at ht
  cases e : al.timestamp with
  | none => rw [e] at ht; cases ht
  | some u => rw [e] at ht; cases ht; exact k1 _ e

theorem upper_time {d : EDTFDate} (h : AllB Tm d.start d.stop) {t : Int} (ht : d.upper = .ok t) : InTime t := by
  obtain ⟨ea, eb, al, au, bl, bu, h1, h2, k1, k2, k3, k4⟩ := h
  unfold EDTFDate.upper at ht
  simp only [h2, Res.deref_some, Res.ok_bind] at ht
  cases e : bu.timestamp with
  | none => rw [e] at ht; cases ht
  | some u => rw [e] at ht; cases ht; exact k4 _ e

theorem parsed_not_open {s : Str} {d : EDTFDate} (h : parseString s = .ok d) {lo : Int} (hb : d.lower = .ok lo) :
    isOpenStr d.edtf = false := by
  rw [(parse_inv h).1]
  unfold isOpenStr
  rw [Bool.or_eq_false_iff]
  constructor <;> rw [beq_eq_false_iff_ne] <;> intro e
  · subst e
    have : parseString OPEN = .ok (mkEDTF openDateSpan OPEN (-1) (c! "Open")) := rfl
    rw [this] at h; cases h; cases hb
  · subst e
    have : parseString OPEN_2012 = .err (Unrecognized (c! "Invalid or unsupported EDTF string") OPEN_2012) := rfl
    rw [this] at h; cases h

/-- C34 for parsed dates, with the mirror property. -/
theorem C34_parsed {s t : Str} {x y : EDTFDate} {xl xu yl yu : Int} (px : parseString s = .ok x)
    (py : parseString t = .ok y) (hx : HasBounds x xl xu) (hy : HasBounds y yl yu) :
    x.after y = .ok (decide (yu ≤ xl)) ∧ x.before y = .ok (decide (xu ≤ yl)) ∧ x.after y = y.before x := by
  have ix := parsed_time px
  have iy := parsed_time py
  have a1 := lower_time ix hx.1
  have a2 := upper_time ix hx.2
  have b1 := lower_time iy hy.1
  have b2 := upper_time iy hy.2
  have h1 := C34_bounds hx hy (parsed_not_open px hx.1) a1 a2 b1 b2
  have h2 := C34_bounds hy hx (parsed_not_open py hy.1) b1 b2 a1 a2
  exact ⟨h1.1, h1.2, by rw [h1.1, h2.2]⟩

example : ∃ x y xl xu yl yu, parseString (c! "1985-04/1985-06") = .ok x ∧ parseString (c! "1985-05") = .ok y ∧ HasBounds x xl xu ∧ HasBounds y yl yu ∧
    x.after y = .ok false ∧ x.before y = .ok false :=
  ⟨_, _, _, _, _, _, rfl, rfl, ⟨rfl, rfl⟩, ⟨rfl, rfl⟩, by decide +kernel, by decide +kernel⟩

/-- C34 for the functions on strings (package cmp). -/
theorem C34_strings {s t : Str} {x y : EDTFDate} {xl xu yl yu : Int} (px : parseString s = .ok x)
    (py : parseString t = .ok y) (hx : HasBounds x xl xu) (hy : HasBounds y yl yu) :
    isAfter s t = .ok (decide (yu ≤ xl)) ∧ isBefore s t = .ok (decide (xu ≤ yl)) := by
  have h := C34_parsed px py hx hy
  unfold isAfter isBefore
  rw [px, py]
  exact ⟨h.1, h.2.1⟩

example : ∃ x y xl xu yl yu, parseString (c! "2021-01") = .ok x ∧ parseString (c! "2020-12") = .ok y ∧
    HasBounds x xl xu ∧ HasBounds y yl yu ∧ yu ≤ xl :=
  ⟨_, _, _, _, _, _, rfl, rfl, ⟨rfl, rfl⟩, ⟨rfl, rfl⟩, by decide⟩

/-! ### C35 -/

/-- C35 does not hold: an instant is both after and before itself. -/
theorem C35_negation : ∃ (s : Str) (x : EDTFDate), parseString s = .ok x ∧ x.after x = .ok true ∧ x.before x = .ok true :=
  ⟨c! "1985-04-12T23:20:30Z", _, rfl, rfl, rfl⟩

/-- C35, what holds: a date that lasts (its lower bound before its upper bound)
is neither after nor before itself.  Missing: instants. -/
theorem C35_irrefl_partial {s : Str} {x : EDTFDate} {lo up : Int} (px : parseString s = .ok x) (hx : HasBounds x lo up)
    (h : lo < up) : x.after x = .ok false ∧ x.before x = .ok false := by
  have := C34_parsed px px hx hx
  rw [this.1, this.2.1]
  constructor <;> rw [decide_eq_false (by omega)]

example : ∃ x lo up, parseString (c! "1985-04/1985-06") = .ok x ∧ HasBounds x lo up ∧ lo < up :=
  ⟨_, _, _, rfl, ⟨rfl, rfl⟩, by decide +kernel⟩

/-- C35, exactly: x is after itself if and only if it ends no later than it starts. -/
theorem C35_self {s : Str} {x : EDTFDate} {lo up : Int} (px : parseString s = .ok x) (hx : HasBounds x lo up) :
    (x.after x = .ok true ↔ up ≤ lo) ∧ (x.before x = .ok true ↔ up ≤ lo) := by
  have := C34_parsed px px hx hx
  rw [this.1, this.2.1]
  simp

example : ∃ x lo up, parseString (c! "1985-04-12T23:20:30Z") = .ok x ∧ HasBounds x lo up ∧ up ≤ lo ∧ x.after x = .ok true :=
  ⟨_, _, _, rfl, ⟨rfl, rfl⟩, by decide +kernel, by decide +kernel⟩

/-- C35, asymmetry for dates that last. -/
theorem C35_asymm_partial {s t : Str} {x y : EDTFDate} {xl xu yl yu : Int} (px : parseString s = .ok x)
    (py : parseString t = .ok y) (hx : HasBounds x xl xu) (hy : HasBounds y yl yu) (h1 : xl < xu) (h2 : yl ≤ yu) :
    ¬ (x.after y = .ok true ∧ y.after x = .ok true) ∧ ¬ (x.before y = .ok true ∧ y.before x = .ok true) := by
  have a := C34_parsed px py hx hy
  have b := C34_parsed py px hy hx
  rw [a.1, b.1, a.2.1, b.2.1]
  simp
  omega

example : ∃ x lo up, parseString (c! "2004-06") = .ok x ∧ HasBounds x lo up ∧ lo < up :=
  ⟨_, _, _, rfl, ⟨rfl, rfl⟩, by decide⟩

/-! ### C36 -/

/-- C36: transitivity, for dates that do not end before they start. -/
theorem C36_trans {s t r : Str} {x y z : EDTFDate} {xl xu yl yu zl zu : Int} (px : parseString s = .ok x)
    (py : parseString t = .ok y) (pz : parseString r = .ok z) (hx : HasBounds x xl xu) (hy : HasBounds y yl yu)
    (hz : HasBounds z zl zu) (ho : yl ≤ yu) :
    (x.after y = .ok true → y.after z = .ok true → x.after z = .ok true) ∧
    (x.before y = .ok true → y.before z = .ok true → x.before z = .ok true) := by
  have a := C34_parsed px py hx hy
  have b := C34_parsed py pz hy hz
  have c := C34_parsed px pz hx hz
  rw [a.1, b.1, c.1, a.2.1, b.2.1, c.2.1]
  simp
  omega

example : ∃ x y z xl xu yl yu zl zu, parseString (c! "2010") = .ok x ∧ parseString (c! "2005-06/2006") = .ok y ∧ parseString (c! "2004-06-11") = .ok z ∧
    HasBounds x xl xu ∧ HasBounds y yl yu ∧ HasBounds z zl zu ∧ yl ≤ yu ∧ x.after y = .ok true ∧ y.after z = .ok true :=
  ⟨_, _, _, _, _, _, _, _, _, rfl, rfl, rfl, ⟨rfl, rfl⟩, ⟨rfl, rfl⟩, ⟨rfl, rfl⟩, by decide +kernel, by decide +kernel, by decide +kernel⟩

/-- C36 on strings. -/
theorem C36_strings {s t r : Str} {x y z : EDTFDate} {xl xu yl yu zl zu : Int} (px : parseString s = .ok x)
    (py : parseString t = .ok y) (pz : parseString r = .ok z) (hx : HasBounds x xl xu) (hy : HasBounds y yl yu)
    (hz : HasBounds z zl zu) (ho : yl ≤ yu) :
    (isAfter s t = .ok true → isAfter t r = .ok true → isAfter s r = .ok true) ∧
    (isBefore s t = .ok true → isBefore t r = .ok true → isBefore s r = .ok true) := by
  rw [(C34_strings px py hx hy).1, (C34_strings py pz hy hz).1, (C34_strings px pz hx hz).1,
    (C34_strings px py hx hy).2, (C34_strings py pz hy hz).2, (C34_strings px pz hx hz).2]
  simp
  omega

/-- The order hypothesis of C36 is necessary: 2000 is after "2008/1964", which
is after 2007, but 2000 is not after 2007. -/
theorem C36_needs_order :
    isAfter (c! "2000") (c! "2008/1964") = .ok true ∧ isAfter (c! "2008/1964") (c! "2007") = .ok true ∧
    isAfter (c! "2000") (c! "2007") = .ok false := ⟨rfl, rfl, rfl⟩

example : isAfter (c! "2010") (c! "2005-06") = .ok true ∧ isAfter (c! "2005-06") (c! "2004-06-11") = .ok true :=
  ⟨rfl, rfl⟩

/-! ### C37 -/

/-- C37: IsBetween for three dates with bounds. -/
theorem C37_between {s i c : Str} {x y z : EDTFDate} {xl xu yl yu zl zu : Int} (px : parseString s = .ok x)
    (py : parseString i = .ok y) (pz : parseString c = .ok z) (hx : HasBounds x xl xu) (hy : HasBounds y yl yu)
    (hz : HasBounds z zl zu) :
    isBetween s i c = .ok (decide (yl < xu ∧ xl < zu)) := by
  have hc : c ≠ OPEN := by
    intro e
    have := parsed_not_open pz hz.1
    rw [(parse_inv pz).1, e] at this
    cases this
  have a := C34_strings px py hx hy
  have b := C34_strings px pz hx hz
  unfold isBetween
  rw [a.2, b.1]
  simp only [wrapErr, Res.ok_bind]
  by_cases h1 : xu ≤ yl
  · rw [decide_eq_true h1, if_pos rfl, decide_eq_false (by omega)]
  · rw [decide_eq_false h1, if_neg (by simp), if_pos hc]
    by_cases h2 : zu ≤ xl
    · rw [decide_eq_true h2, if_pos rfl, decide_eq_false (by omega)]
    · rw [decide_eq_false h2, if_neg (by simp), decide_eq_true (by omega)]

example : ∃ x y z xl xu yl yu zl zu, parseString (c! "1985") = .ok x ∧ parseString (c! "1984-06") = .ok y ∧ parseString (c! "1986?") = .ok z ∧
    HasBounds x xl xu ∧ HasBounds y yl yu ∧ HasBounds z zl zu ∧ yl < xu ∧ xl < zu :=
  ⟨_, _, _, _, _, _, _, _, _, rfl, rfl, rfl, ⟨rfl, rfl⟩, ⟨rfl, rfl⟩, ⟨rfl, rfl⟩, by decide +kernel, by decide +kernel⟩

/-- C37 with an open cessation: only the first condition counts. -/
theorem C37_open_end {s i : Str} {x y : EDTFDate} {xl xu yl yu : Int} (px : parseString s = .ok x)
    (py : parseString i = .ok y) (hx : HasBounds x xl xu) (hy : HasBounds y yl yu) :
    isBetween s i (c! "..") = .ok (decide (yl < xu)) := by
  have a := C34_strings px py hx hy
  unfold isBetween
  rw [a.2]
  simp only [wrapErr, Res.ok_bind]
  by_cases h1 : xu ≤ yl
  · rw [decide_eq_true h1, if_pos rfl, decide_eq_false (by omega)]
  · rw [decide_eq_false h1, if_neg (by simp), if_neg (by decide), decide_eq_true (by omega)]

example : ∃ x y xl xu yl yu, parseString (c! "1985") = .ok x ∧ parseString (c! "1985-06") = .ok y ∧
    HasBounds x xl xu ∧ HasBounds y yl yu ∧ yl < xu ∧ isBetween (c! "1984") (c! "1985-06") (c! "..") = .ok false :=
  ⟨_, _, _, _, _, _, rfl, rfl, ⟨rfl, rfl⟩, ⟨rfl, rfl⟩, by decide +kernel, by decide +kernel⟩

/-- An open date is reported to be between any two dates. -/
theorem C37_open_date {i c : Str} {y z : EDTFDate} (py : parseString i = .ok y) (pz : parseString c = .ok z) :
    isBetween (c! "..") i c = .ok true := by
  have hp : parseString (c! "..") = .ok (mkEDTF openDateSpan OPEN (-1) (c! "Open")) := rfl
  have a : isBefore (c! "..") i = .ok false := by unfold isBefore; rw [hp, py]; rfl
  have b : isAfter (c! "..") c = .ok false := by unfold isAfter; rw [hp, pz]; rfl
  unfold isBetween
  rw [a, b]
  simp only [wrapErr, Res.ok_bind]
  simp

example : isBetween (c! "1965") (c! "1964") (c! "1970-05") = .ok true ∧
    isBetween (c! "1971") (c! "1964") (c! "1970-05") = .ok false := ⟨rfl, rfl⟩

/-! ### C38 -/

/-- C38: DeriveRanges reports a range exactly when the string parses with four
timestamps and is not one of the literals for open and unknown; the range then
consists of those timestamps. -/
theorem C38_derive (s : Str) (r : Unix.Range) :
    Unix.deriveRanges s = .ok (some r) ↔
      s ≠ c! ".." ∧ s ≠ c! "open" ∧ s ≠ [] ∧ s ≠ c! "uuuu" ∧
      ∃ (d : EDTFDate) (st en : DateRange) (sl su el eu : Date) (a b c e : Int),
        parseString s = .ok d ∧ d.start = some st ∧ d.stop = some en ∧
        st.lower = some sl ∧ st.upper = some su ∧ en.lower = some el ∧ en.upper = some eu ∧
        sl.timestamp = some a ∧ su.timestamp = some b ∧ el.timestamp = some c ∧ eu.timestamp = some e ∧
        r = ⟨⟨a, e⟩, ⟨b, c⟩⟩ := by
  have hv : Unix.isValid s = true ↔ s ≠ c! ".." ∧ s ≠ c! "open" ∧ s ≠ [] ∧ s ≠ c! "uuuu" := by
    unfold Unix.isValid isOpenStr isUnknownStr isUnspecifiedStr
    simp only [OPEN, OPEN_2012, UNKNOWN, UNKNOWN_2012, UNSPECIFIED, UNSPECIFIED_2012]
    by_cases h1 : s = c! ".." <;> by_cases h2 : s = c! "open" <;> by_cases h3 : s = [] <;>
      by_cases h4 : s = c! "uuuu" <;> simp [h1, h2, h3, h4]
  unfold Unix.deriveRanges
  constructor
  · intro h
    by_cases hc : Unix.isValid s = true
    · rw [hc] at h
      simp only [Bool.not_true, Bool.false_eq_true, if_false] at h
      obtain ⟨d, hd, h⟩ := Res.bind_eq_ok.1 h
      obtain ⟨st, h1, h⟩ := Res.bind_eq_ok.1 h
      obtain ⟨en, h2, h⟩ := Res.bind_eq_ok.1 h
      obtain ⟨q1, q2, q3, q4⟩ := hv.1 hc
      refine ⟨q1, q2, q3, q4, ?_⟩
      have hd' : parseString s = .ok d := by
        cases hp : parseString s with
        | ok v => rw [hp] at hd; exact hd
        | err e => rw [hp] at hd; cases hd
        | panic => rw [hp] at hd; cases hd
      have h1' : d.start = some st := by
        cases hs : d.start <;> rw [hs] at h1 <;> cases h1; rfl
      have h2' : d.stop = some en := by
        cases hs : d.stop <;> rw [hs] at h2 <;> cases h2; rfl
      split at h
      · rename_i sl su el eu e1 e2 e3 e4
        split at h
        · rename_i a b c e t1 t2 t3 t4
          simp only [Res.ok.injEq, Option.some.injEq] at h
          exact ⟨d, st, en, sl, su, el, eu, a, b, c, e, hd', h1', h2', e1, e2, e3, e4, t1, t2, t3, t4, h.symm⟩
        · cases h
      · cases h
    · rw [Bool.not_eq_true] at hc
      rw [hc] at h
      simp at h
  · rintro ⟨q1, q2, q3, q4, d, st, en, sl, su, el, eu, a, b, c, e, hp, h1, h2, e1, e2, e3, e4, t1, t2, t3, t4, rfl⟩
    rw [hv.2 ⟨q1, q2, q3, q4⟩]
    simp only [Bool.not_true, Bool.false_eq_true, if_false, hp, wrapErr, Res.ok_bind, h1, h2, Res.deref_some, e1, e2, e3, e4, t1, t2, t3, t4]

/-- C38: the outer span is (Lower(), Upper()). -/
theorem C38_outer {s : Str} {r : Unix.Range} (h : Unix.deriveRanges s = .ok (some r)) :
    ∃ d, parseString s = .ok d ∧ HasBounds d r.outer.start r.outer.stop := by
  obtain ⟨-, -, -, -, d, st, en, sl, su, el, eu, a, b, c, e, hp, h1, h2, e1, e2, e3, e4, t1, t2, t3, t4, rfl⟩ :=
    (C38_derive s r).1 h
  refine ⟨d, hp, ?_, ?_⟩
  · simp [EDTFDate.lower, h1, e1, t1]
  · simp [EDTFDate.upper, h2, e4, t4]

example : ∃ r, Unix.deriveRanges (c! "1985-04/1985-06") = .ok (some r) ∧ r.outer.start < r.outer.stop := ⟨_, rfl, by decide +kernel⟩

/-- C38: for a single calendar date the inner span lies inside the outer one. -/
theorem C38_nested (f : Int → Nat → Nat → Int) (hf : DayCount f) {x : Date0} (h : x.ok) :
    ∃ r : Unix.Range, Unix.deriveRanges x.text = .ok (some r) ∧
      r.outer.start = 86400 * f x.value x.first.1 x.first.2 ∧
      r.outer.stop = 86400 * f x.value x.last.1 x.last.2 + 86399 ∧
      r.outer.start ≤ r.inner.start ∧ r.inner.start ≤ r.inner.stop ∧ r.inner.stop ≤ r.outer.stop := by
  have hp := parse_date0 hf h
  have v1 := Date0.valid_first h
  have v2 := Date0.valid_last h
  have hle : f x.value x.first.1 x.first.2 ≤ f x.value x.last.1 x.last.2 := by
    rw [dayCount_eq hf v1, dayCount_eq hf v2]
    apply unixDay_le v1 v2
    obtain ⟨neg, n, t⟩ := x
    cases t with
    | none => right; refine ⟨rfl, ?_⟩; left; simp [Date0.first, Date0.last]
    | month m =>
      right; refine ⟨rfl, ?_⟩; right; refine ⟨rfl, ?_⟩
      exact v2.2.2.1
    | day m d => right; exact ⟨rfl, Or.inr ⟨rfl, Nat.le_refl _⟩⟩
  have hlt : x.tail ≠ .day x.first.1 x.first.2 → f x.value x.first.1 x.first.2 < f x.value x.last.1 x.last.2 := by
    intro hne
    have hmono : ∀ m d : Nat, Valid x.value m d → (x.first.1 < m ∨ (x.first.1 = m ∧ x.first.2 < d)) →
        f x.value x.first.1 x.first.2 < f x.value m d := by
      intro m d hv hlt'
      have hv' : Valid x.value x.first.1 (x.first.2 + 1) := by
        have hp28 := monthLen_pos x.value x.first.1
        refine ⟨v1.1, v1.2.1, by omega, ?_⟩
        obtain ⟨neg, n, t⟩ := x
        cases t with
        | none => simp only [Date0.first] at hp28 ⊢; omega
        | month m => simp only [Date0.first] at hp28 ⊢; omega
        | day m d => exact absurd rfl hne
      have : f x.value x.first.1 (x.first.2 + 1) = f x.value x.first.1 x.first.2 + 1 :=
        hf.next_day _ _ _ v1 (by have := hv'.2.2.2; omega)
      have h2 : f x.value x.first.1 (x.first.2 + 1) ≤ f x.value m d := by
        rw [dayCount_eq hf hv', dayCount_eq hf hv]
        apply unixDay_le hv' hv
        right; refine ⟨rfl, ?_⟩
        rcases hlt' with a | ⟨a, b⟩
        · left; exact a
        · right; exact ⟨a, b⟩
      omega
    apply hmono _ _ v2
    obtain ⟨neg, n, t⟩ := x
    cases t with
    | none => left; simp [Date0.first, Date0.last]
    | month m =>
      right
      have := monthLen_pos (⟨neg, n, .month m⟩ : Date0).value m
      exact ⟨rfl, by simp only [Date0.first, Date0.last]; omega⟩
    | day m d => exact absurd rfl hne
  have q : x.text ≠ c! ".." ∧ x.text ≠ c! "open" ∧ x.text ≠ [] ∧ x.text ≠ c! "uuuu" := by
    refine ⟨date0_ne_open x, ?_, date0_ne_nil x, ?_⟩
    · intro e
      have : 'o' ∈ x.text := by rw [e]; simp
      exact date0_not_mem x (by decide) (by decide) this
    · intro e
      have : 'u' ∈ x.text := by rw [e]; simp
      exact date0_not_mem x (by decide) (by decide) this
  by_cases hd : x.tail = .day x.first.1 x.first.2
  · simp only [hd, if_true] at hp
    refine ⟨⟨⟨_, _⟩, ⟨_, _⟩⟩, (C38_derive _ _).2 ⟨q.1, q.2.1, q.2.2.1, q.2.2.2, _, _, _, _, _, _, _, _, _, _, _, hp, rfl, rfl,
      rfl, rfl, rfl, rfl, rfl, rfl, rfl, rfl, rfl⟩, ?_⟩
    refine ⟨?_, ?_, ?_, ?_, ?_⟩ <;> simp <;> omega
  · have := hlt hd
    simp only [hd, if_false] at hp
    refine ⟨⟨⟨_, _⟩, ⟨_, _⟩⟩, (C38_derive _ _).2 ⟨q.1, q.2.1, q.2.2.1, q.2.2.2, _, _, _, _, _, _, _, _, _, _, _, hp, rfl, rfl,
      rfl, rfl, rfl, rfl, rfl, rfl, rfl, rfl, rfl⟩, ?_⟩
    refine ⟨?_, ?_, ?_, ?_, ?_⟩ <;> simp <;> omega

example : Unix.deriveRanges (c! "2021-02") = .ok (some ⟨⟨1612137600, 1614556799⟩, ⟨1612223999, 1614470400⟩⟩) := rfl
example : Unix.deriveRanges (c! "1985/..") = .ok none := rfl

end EDTF
