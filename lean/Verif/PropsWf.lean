/- C31-C33: facts that hold for every string that parses. -/
import Verif.PropsSet
import Verif.LemmasWf
namespace EDTF
open Spec

variable {f : Int → Nat → Nat → Int}

/-! ### C31 -/

theorem bd_boundary (hf : DayCount f) {b : Date} (h : Bd b) : Boundary f b := by
  rcases h with ⟨y, m, d, hh, mi, ss, u, a, p, i, V, hy, h1, h2, h3, rfl⟩ | ⟨i, rfl⟩ | ⟨i, rfl⟩
  · refine .inl ⟨rfl, rfl, y, m, d, hh, mi, ss, V, h1, h2, h3, by omega, by omega, rfl, ?_, .inr rfl⟩
    rw [dayCount_eq hf V]
    rfl
  · exact .inr (.inl ⟨rfl, rfl, rfl, rfl, rfl⟩)
  · exact .inr (.inr ⟨rfl, rfl, rfl, rfl, rfl⟩)

theorem allB_mono {P Q : Date → Prop} (h : ∀ b, P b → Q b) {a b : Option DateRange} (k : AllB P a b) : AllB Q a b := by
  obtain ⟨e1, e2, al, au, bl, bu, h1, h2, p1, p2, p3, p4⟩ := k
  exact ⟨e1, e2, al, au, bl, bu, h1, h2, h _ p1, h _ p2, h _ p3, h _ p4⟩

/-- What every result looks like: its boundaries are of the three kinds, or it
is an instant, with the same boundary four times and no calendar date. -/
theorem parse_shape {s : Str} {d : EDTFDate} (hd : parseString s = .ok d) :
    AllB Bd d.start d.stop ∨
    ∃ (y : Int) (m dd hh mi ss : Nat), Valid y m dd ∧ hh < 24 ∧ mi < 60 ∧ ss < 60 ∧ -10000 ≤ y ∧ y ≤ 10000 ∧
      d = ⟨some ⟨[], some { dated U y m dd hh mi ss 0 0 0 with ymd := none }, some { dated U y m dd hh mi ss 0 0 0 with ymd := none }⟩,
           some ⟨[], some { dated U y m dd hh mi ss 0 0 0 with ymd := none }, some { dated U y m dd hh mi ss 0 0 0 with ymd := none }⟩,
           s, 0, L0.DATE_AND_TIME⟩ := by
  cases parse_origin hd with
  | special _ h =>
    left
    rcases h with rfl | rfl
    · exact ⟨_, _, _, _, _, _, rfl, rfl, bd_open, bd_open, bd_open, bd_open⟩
    · exact ⟨_, _, _, _, _, _, rfl, rfl, bd_unknown, bd_unknown, bd_unknown, bd_unknown⟩
  | instant L t0 b h =>
    obtain ⟨y, m, dd, hh, mi, ss, V, h1, h2, h3, h4, h5, e⟩ := instant_bd h b
    exact .inr ⟨y, m, dd, hh, mi, ss, V, h1, h2, h3, h4, h5, by rw [e]⟩
  | span t sp l f h => exact .inl (dateSpanFromEDTF_bd h)
  | set mem p sp _ h => exact .inl (setSpan_bd h)

/-- C31: if a string parses, the four boundaries are present, and each is of
exactly one of the three kinds: dated (with the text the RFC 3339 form of its
timestamp and the calendar date, if there is one, an existing day that contains
the timestamp), open, or unknown (both without text, timestamp and date). -/
theorem C31_wellformed (hf : DayCount f) {s : Str} {d : EDTFDate} (h : parseString s = .ok d) :
    ∃ (es ee : Str) (sl su el eu : Date), d.start = some ⟨es, some sl, some su⟩ ∧ d.stop = some ⟨ee, some el, some eu⟩ ∧
      Boundary f sl ∧ Boundary f su ∧ Boundary f el ∧ Boundary f eu := by
  rcases parse_shape h with h | ⟨y, m, dd, hh, mi, ss, V, h1, h2, h3, h4, h5, rfl⟩
  · exact allB_mono (fun b => bd_boundary hf) h
  · have : Boundary f { dated U y m dd hh mi ss 0 0 0 with ymd := none } := by
      refine .inl ⟨rfl, rfl, y, m, dd, hh, mi, ss, V, h1, h2, h3, h4, h5, rfl, ?_, .inl rfl⟩
      rw [dayCount_eq hf V]
      rfl
    exact ⟨_, _, _, _, _, _, rfl, rfl, this, this, this, this⟩

/-- Such strings: an uncertain date, a set, an instant. -/
example : ∃ d, parseString (c! "{2004-06,2005..}") = .ok d := ⟨_, rfl⟩
example : ∃ d, parseString (c! "1985-04-12T23:20:30Z") = .ok d := ⟨_, rfl⟩

/-- C31, uniqueness of the calendar date: the day and second of a dated boundary
are determined by its timestamp. -/
theorem C31_determined (hf : DayCount f) {y y' : Int} {m d hh mi ss m' d' hh' mi' ss' : Nat} (V : Valid y m d) (V' : Valid y' m' d')
    (h1 : hh < 24) (h2 : mi < 60) (h3 : ss < 60) (h1' : hh' < 24) (h2' : mi' < 60) (h3' : ss' < 60)
    (h : 86400 * f y m d + (3600 * hh + 60 * mi + ss : Nat) = 86400 * f y' m' d' + (3600 * hh' + 60 * mi' + ss' : Nat)) :
    y = y' ∧ m = m' ∧ d = d' ∧ hh = hh' ∧ mi = mi' ∧ ss = ss' := by
  have e : f y m d = f y' m' d' := by omega
  rw [dayCount_eq hf V, dayCount_eq hf V'] at e
  have ymd : y = y' ∧ m = m' ∧ d = d' := by
    have c := civil_unixDay _ _ _ V
    rw [e, civil_unixDay _ _ _ V'] at c
    injection c with c1 c2
    injection c2 with c2 c3
    omega
  refine ⟨ymd.1, ymd.2.1, ymd.2.2, ?_, ?_, ?_⟩ <;> omega

example : Valid (-4) 2 29 ∧ Valid (-4) 3 1 ∧ U (-4) 2 29 + 1 = U (-4) 3 1 := by
  refine ⟨?_, ?_, by decide +kernel⟩ <;> (unfold Valid; decide)

/-! ### C33 -/

/-- C33: every year reported on a boundary lies between -9999 and 9999. -/
theorem C33_years {s : Str} {d : EDTFDate} (h : parseString s = .ok d) {r : DateRange} (hr : d.start = some r ∨ d.stop = some r)
    {b : Date} (hb : r.lower = some b ∨ r.upper = some b) {v : YMD} (hv : b.ymd = some v) : -9999 ≤ v.year ∧ v.year ≤ 9999 := by
  rcases parse_shape h with h | ⟨y, m, dd, hh, mi, ss, V, h1, h2, h3, h4, h5, rfl⟩
  · have key : ∀ b, Bd b → ∀ v, b.ymd = some v → -9999 ≤ v.year ∧ v.year ≤ 9999 := by
      rintro b (⟨y, m, d, hh, mi, ss, u, a, p, i, V, hy, h1, h2, h3, rfl⟩ | ⟨i, rfl⟩ | ⟨i, rfl⟩) v hv
      · injection hv with hv
        subst hv
        show -9999 ≤ y ∧ y ≤ 9999
        omega
      · cases hv
      · cases hv
    obtain ⟨e1, e2, al, au, bl, bu, h1, h2, p1, p2, p3, p4⟩ := h
    refine key b ?_ v hv
    rw [h1, h2] at hr
    rcases hr with hr | hr <;> (injection hr with hr; subst hr) <;> rcases hb with hb | hb <;> (injection hb with hb; subst hb) <;> assumption
  · exfalso
    rcases hr with hr | hr <;> (injection hr with hr; subst hr) <;> rcases hb with hb | hb <;> (injection hb with hb; subst hb) <;> cases hv

/-- Both ends of the range occur. -/
example : (∃ d, parseString (c! "-9999") = .ok d) ∧ ∃ d, parseString (c! "9999-12-31") = .ok d := ⟨⟨_, rfl⟩, ⟨_, rfl⟩⟩

/-! ### C32 -/

/-- In both ranges the lower timestamp is not after the upper one. -/
def Ordered (d : EDTFDate) : Prop :=
  ∀ r, (d.start = some r ∨ d.stop = some r) → ∀ l u tl tu, r.lower = some l → r.upper = some u →
    l.timestamp = some tl → u.timestamp = some tu → tl ≤ tu

theorem ordered_of {d : EDTFDate} (h : RangeLe d.start ∧ RangeLe d.stop) : Ordered d := by
  intro r hr l u tl tu hl hu htl htu
  obtain ⟨e, rl, ru⟩ := r
  simp only at hl hu
  subst hl hu
  rcases hr with hr | hr
  · exact h.1 _ _ _ _ _ hr htl htu
  · exact h.2 _ _ _ _ _ hr htl htu

/-- C32 is false: in "{-0100,-0200..}" the start range runs from the beginning
of -100 to the end of -200. -/
theorem C32_negation : ∃ d, parseString (c! "{-0100,-0200..}") = .ok d ∧ ¬ Ordered d := by
  refine ⟨_, rfl, fun h => ?_⟩
  have := h _ (.inl rfl) _ _ _ _ rfl rfl rfl rfl
  revert this
  decide +kernel

theorem setSpan_le {l : List Str} {a b : Bool} {p : Prec} {sp : DateSpan} (h : L2.setSpan l a b p = .ok sp)
    (hno : ∀ r x, (sp.start = some r ∨ sp.stop = some r) → (r.lower = some x ∨ r.upper = some x) → x.isOpen = false) :
    RangeLe sp.start ∧ RangeLe sp.stop := by
  unfold L2.setSpan at h
  simp only at h
  obtain ⟨sp0, h0, h⟩ := Res.bind_eq_ok.1 h
  obtain ⟨sp1, h1, h⟩ := Res.bind_eq_ok.1 h
  obtain ⟨st, h2, h⟩ := Res.bind_eq_ok.1 h
  obtain ⟨en, h3, h⟩ := Res.bind_eq_ok.1 h
  injection h with h
  subst h
  have b0 := dateSpanFromEDTF_bd h0
  have l0 := dateSpanFromEDTF_le h0
  unfold L2.openPostFactoIf at h1
  split at h1
  · -- some side is open in the result
    exfalso
    rename_i hp
    obtain ⟨st0, en0⟩ := sp0
    obtain ⟨e1, e2, al, au, bl, bu, q1, q2, -⟩ := b0
    simp only at q1 q2
    subst q1 q2
    have hab : (a || b) = true := by
      unfold L2.setString at hp
      simp only at hp
      split at hp
      · rename_i k; simp at k; simp [k.1]
      · cases hp
    unfold L2.openPostFacto at h1
    cases a <;> cases b <;> simp only [Res.deref_some, Res.ok_bind, Bool.false_eq_true, if_true, if_false] at h1 <;>
      (injection h1 with h1; subst h1)
    · cases hab
    · injection h3 with h3; subst h3
      have := hno openDateRange _ (.inr rfl) (.inl rfl)
      cases this
    · injection h2 with h2; subst h2
      have := hno openDateRange _ (.inl rfl) (.inl rfl)
      cases this
    · injection h2 with h2; subst h2
      have := hno _ _ (.inl rfl) (.inl rfl)
      cases this
  · injection h1 with h1
    subst h1
    obtain ⟨st0, en0⟩ := sp0
    obtain ⟨e1, e2, al, au, bl, bu, q1, q2, -⟩ := b0
    simp only at q1 q2 h2 h3
    subst q1 q2
    rw [setInclusivity_eq] at h2 h3
    injection h2 with h2
    injection h3 with h3
    subst h2 h3
    constructor
    · intro e x y tx ty hr hx hy
      injection hr with hr
      injection hr with ha hb hc
      injection hb with hb
      injection hc with hc
      subst ha hb hc
      exact l0.1 _ _ _ _ _ rfl hx hy
    · intro e x y tx ty hr hx hy
      injection hr with hr
      injection hr with ha hb hc
      injection hb with hb
      injection hc with hc
      subst ha hb hc
      exact l0.2 _ _ _ _ _ rfl hx hy

/-- C32 for every string whose result is not that of a set with an open side:
all of level 0, all of level 1, and all of level 2 but those sets. -/
theorem C32_order_partial {s : Str} {d : EDTFDate} (hd : parseString s = .ok d)
    (hs : d.feature ≠ c! "Set representation" ∨
      ∀ r b, (d.start = some r ∨ d.stop = some r) → (r.lower = some b ∨ r.upper = some b) → b.isOpen = false) : Ordered d := by
  cases parse_origin hd with
  | special _ h =>
    apply ordered_of
    rcases h with rfl | rfl <;> constructor <;> intro e l u tl tu hr hl hu <;> injection hr with hr <;> injection hr with _ hr <;>
      injection hr with hr <;> subst hr <;> cases hl
  | instant L t0 b h =>
    intro r hr l u tl tu hl hu htl htu
    rcases hr with hr | hr <;> (injection hr with hr; subst hr; injection hl with hl; injection hu with hu; subst hl hu; rw [htl] at htu; injection htu with htu; omega)
  | span t sp l f h => exact ordered_of (dateSpanFromEDTF_le h)
  | set mem p sp _ h =>
    rcases hs with hs | hs
    · exact absurd rfl hs
    · exact ordered_of (setSpan_le h hs)

example : ∃ d, parseString (c! "1986/1985") = .ok d ∧ d.feature ≠ c! "Set representation" := ⟨_, rfl, by decide +kernel⟩

theorem rangeLe_mk {e : Str} {l u : Date} : RangeLe (some ⟨e, some l, some u⟩) ↔
    ∀ tl tu, l.timestamp = some tl → u.timestamp = some tu → tl ≤ tu := by
  constructor
  · intro h tl tu h1 h2; exact h _ _ _ _ _ rfl h1 h2
  · intro h e' l' u' tl tu hr
    injection hr with hr
    injection hr with _ h1 h2
    injection h1 with h1
    injection h2 with h2
    subst h1 h2
    exact h tl tu

theorem rangeLe_open {e : Str} {u : Date} : RangeLe (some ⟨e, some openEnd, some u⟩) :=
  rangeLe_mk.2 (fun _ _ h _ => by cases h)

theorem rangeLe_flag {e : Str} {l u : Date} {p : Prec} : RangeLe (some (flagged p ⟨e, some l, some u⟩)) ↔ RangeLe (some ⟨e, some l, some u⟩) := by
  show RangeLe (some ⟨e, some _, some _⟩) ↔ _
  rw [rangeLe_mk, rangeLe_mk]

theorem rangeLe_dates {e : Str} {y1 y2 : Int} {m1 d1 m2 d2 : Nat} {u1 a1 p1 u2 a2 p2 : Prec} (V1 : Valid y1 m1 d1) (V2 : Valid y2 m2 d2)
    (h : dayLe y1 m1 d1 y2 m2 d2) : RangeLe (some ⟨e, some (dayStart U y1 m1 d1 u1 a1 p1), some (dayEnd U y2 m2 d2 u2 a2 p2)⟩) := by
  rw [rangeLe_mk]
  intro tl tu hx hy
  injection hx with hx
  injection hy with hy
  rw [← hx, ← hy]
  exact ts_le V1 V2 h

theorem rangeLe_date0 {e : Str} {x : Date0} {p u1 a1 p1 : Prec} (h : x.ok) (hn : x.neg = false) : RangeLe (some (flagged p (x.range U e u1 a1 p1))) :=
  rangeLe_flag.2 (rangeLe_dates (Date0.valid_first h) (Date0.valid_last h) (text_order h h hn hn (strLe_refl _)).2.1)

theorem eq_singleton {α : Type} {l : List α} (h0 : l ≠ []) (h : l.length ≤ 1) : ∃ p, l = [p] := by
  match l, h0, h with
  | [p], _, _ => exact ⟨p, rfl⟩

/-- C32 for sets with open sides whose dates have years 0000-9999. -/
theorem C32_sets_partial {o c : Char} (hb : Brackets o c) {ps : List Part} (hS : SetOk ps) (hok : ∀ x ∈ members ps, x.ok)
    (hpos : ∀ x ∈ members ps, x.neg = false) : ∃ d, parseString (setText o c ps) = .ok d ∧ Ordered d := by
  obtain ⟨a, b, la, gb, ea, eb⟩ := exists_ends (members_ne_nil hS.1)
  have hA := hok a la.1
  have hB := hok b gb.1
  have hp := parse_set hb hS (fun x hx => ok_shape' (hok x hx))
  have hab := text_order hA hB (hpos a la.1) (hpos b gb.1) (la.2 b gb.1)
  by_cases hop : (ps.any Part.isUpTo || ps.any Part.isOnFrom) = true
  · by_cases hl : 1 < (sortStrings ((members ps).map Date0.text)).length
    · rw [setSpan_open hA hB hl ea eb _ _ hop] at hp
      refine ⟨_, hp, ordered_of ?_⟩
      cases so : ps.any Part.isUpTo <;> cases eo : ps.any Part.isOnFrom <;> rw [so, eo] at hop
      · cases hop
      · exact ⟨rangeLe_flag.2 (rangeLe_dates (Date0.valid_first hA) (Date0.valid_last hB) hab.2.1), rangeLe_open⟩
      · exact ⟨rangeLe_open, rangeLe_flag.2 (rangeLe_dates (Date0.valid_first hA) (Date0.valid_last hB) hab.2.1)⟩
      · exact ⟨rangeLe_open, rangeLe_open⟩
    · have hl' : (members ps).length ≤ 1 := by rw [length_sortStrings] at hl; simpa using hl
      have hps : ps.length ≤ 1 := by
        have : ∀ qs : List Part, qs.length ≤ (members qs).length := by
          intro qs
          induction qs with
          | nil => simp
          | cons q qs ih => cases q <;> simp [members, Part.dates] at ih ⊢ <;> omega
        exact Nat.le_trans (this ps) hl'
      obtain ⟨p, rfl⟩ := eq_singleton hS.1 hps
      cases p with
      | one x => cases hop
      | pair x y => cases hop
      | upTo x =>
        have hx := hok x (by simp [members, Part.dates])
        obtain ⟨d, hd, -, h1, h2⟩ := C26_upTo dayCount_unixDay hb hx
        refine ⟨d, hd, ordered_of ?_⟩
        rw [h1, h2]
        exact ⟨rangeLe_open, rangeLe_date0 hx (hpos x (by simp [members, Part.dates]))⟩
      | onFrom x =>
        have hx := hok x (by simp [members, Part.dates])
        obtain ⟨d, hd, -, h1, h2⟩ := C26_onFrom dayCount_unixDay hb hx
        refine ⟨d, hd, ordered_of ?_⟩
        rw [h1, h2]
        exact ⟨rangeLe_date0 hx (hpos x (by simp [members, Part.dates])), rangeLe_open⟩
  · obtain ⟨h1, h2⟩ := Bool.or_eq_false_iff.1 (Bool.eq_false_iff.2 hop)
    rw [List.any_eq_false] at h1 h2
    obtain ⟨_, _, d, s1, s2, e1, e2, -, -, hd, -, -, -, -, -, hs, he, hx⟩ := set_closed dayCount_unixDay hb hS.1
      (fun p hp => by simpa using h1 p hp) (fun p hp => by simpa using h2 p hp) hok
    refine ⟨d, hd, C32_order_partial hd (.inr ?_)⟩
    intro r b hr hb'
    rw [hs, he] at hr
    refine (hx b ?_).2.1
    rcases hr with hr | hr <;> (injection hr with hr; subst hr) <;> rcases hb' with hb' | hb' <;> (injection hb' with hb'; subst hb') <;> simp

example : ∃ d, parseString (c! "[1667..1670,1700..]") = .ok d ∧ Ordered d :=
  C32_sets_partial (o := '[') (c := ']') (by decide) (ps := [.pair ⟨false, 1667, .none⟩ ⟨false, 1670, .none⟩, .onFrom ⟨false, 1700, .none⟩])
    ⟨by decide, by decide, by decide⟩ (by decide) (by decide)

end EDTF
