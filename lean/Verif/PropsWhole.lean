/-
C100: the times that texts can stand for.
-/
import Verif.SpecWhole
import Verif.PropsNear
import Verif.LemmasPeriod
namespace EDTF
open Spec

variable {f : Int → Nat → Nat → Int}

/-! ### Whole days -/

/-- A boundary that, if it has a time, is the first second of a day. -/
def Opens (a : Date) : Prop := ∀ t, a.timestamp = some t → t % 86400 = 0
/-- A boundary that, if it has a time, is the last second of a day. -/
def Closes (a : Date) : Prop := ∀ t, a.timestamp = some t → t % 86400 = 86399

/-- The first boundary opens and the last closes. -/
def Lit (S E : DateRange) : Prop := ∃ a b, S.lower = some a ∧ E.upper = some b ∧ Opens a ∧ Closes b

theorem opens_day {y : Int} {m d : Nat} {u a p : Prec} : Opens (dayStart f y m d u a p) := by
  intro t h
  rw [ts_start] at h
  injection h with h
  omega

theorem closes_day {y : Int} {m d : Nat} {u a p : Prec} : Closes (dayEnd f y m d u a p) := by
  intro t h
  rw [ts_end] at h
  injection h with h
  omega

theorem opens_open : Opens openEnd ∧ Closes openEnd := ⟨(fun t h => by cases h), (fun t h => by cases h)⟩
theorem opens_unknown : Opens unknownEnd ∧ Closes unknownEnd := ⟨(fun t h => by cases h), (fun t h => by cases h)⟩

theorem rangeOf_lit {t : Str} {R : DateRange} (h : RangeOf f t R) : Lit R R := by
  cases h with
  | absent => exact ⟨_, _, rfl, rfl, opens_unknown⟩
  | date => exact ⟨_, _, rfl, rfl, opens_day, closes_day⟩

theorem spanOf_lit {t : Str} {S E : DateRange} (h : SpanOf f t S E) : Lit S E := by
  cases h with
  | date => exact ⟨_, _, rfl, rfl, opens_day, closes_day⟩

theorem flagged_lit {p q : Prec} {S E : DateRange} (h : Lit S E) : Lit (flagged p S) (flagged q E) := by
  obtain ⟨a, b, h1, h2, h3, h4⟩ := h
  exact ⟨{ a with inclusivity := p }, { b with inclusivity := q }, by simp [flagged, h1], by simp [flagged, h2], h3, h4⟩

theorem lit_both {S E S' E' : DateRange} (h : Lit S E) (k : Lit S' E') : Lit S E' := by
  obtain ⟨a, b, h1, h2, h3, h4⟩ := h
  obtain ⟨a', b', h1', h2', h3', h4'⟩ := k
  exact ⟨a, b', h1, h2', h3, h4'⟩

theorem lit_range {x z : Date0} {s t : Str} {u a p u' a' p' : Prec} : Lit (x.range f s u a p) (z.range f t u' a' p') :=
  ⟨_, _, rfl, rfl, opens_day, closes_day⟩

theorem lit_open {t t' : Str} : Lit (openRange t) (openRange t') := ⟨_, _, rfl, rfl, opens_open⟩

theorem lit_setSpan {p : Prec} {ms : List Str} {b c : Bool} {S E : DateRange} (h : SetSpan f p ms b c S E) : Lit S E := by
  cases h with
  | one t h S E hs => exact flagged_lit (spanOf_lit hs)
  | closed a b h hab R S hR hS => exact flagged_lit (lit_both (rangeOf_lit hR) (rangeOf_lit hS))
  | upTo1 t h R hR => exact lit_both (lit_open (t' := [])) (flagged_lit (p := 0) (rangeOf_lit hR))
  | onFrom1 t h R hR => exact lit_both (flagged_lit (q := 0) (rangeOf_lit hR)) (lit_open (t := []))
  | upTo a b h h2 R S hR hS =>
    obtain ⟨x, y, -, k2, -, k4⟩ := rangeOf_lit hS
    exact lit_both (lit_open (t' := [])) (flagged_lit (p := 0) (S := openRange []) (E := ⟨b, R.lower, S.upper⟩) ⟨_, y, rfl, k2, opens_open.1, k4⟩)
  | onFrom a b h h2 R S hR hS =>
    obtain ⟨x, y, k1, -, k3, -⟩ := rangeOf_lit hR
    exact lit_both (flagged_lit (q := 0) (S := ⟨a, R.lower, S.upper⟩) (E := openRange []) ⟨x, _, k1, rfl, k3, opens_open.2⟩) (lit_open (t := []))
  | both a b h h2 R S hR hS =>
    obtain ⟨x, y, -, k2, -, k4⟩ := rangeOf_lit hS
    exact ⟨_, y, rfl, k2, opens_open.1, k4⟩

theorem colon_digits (l : List Nat) (h : ∀ a ∈ l, a < 10) : ':' ∉ l.map dig := by
  intro hm
  obtain ⟨a, ha, e⟩ := List.mem_map.1 hm
  have : ∀ a : Nat, a < 10 → dig a ≠ ':' := by decide
  exact this a (h a ha) e

theorem colon_pad2 (n : Nat) : ':' ∉ pad2 n := by
  have a := (dig_mod_ne (n := n / 10) (c := ':') (by decide)).symm
  have b := (dig_mod_ne (n := n) (c := ':') (by decide)).symm
  simp [pad2, a, b]

theorem colon_year (neg : Bool) (n : Nat) : ':' ∉ signed neg (pad4 n) := by
  have a := (dig_mod_ne (n := n / 1000) (c := ':') (by decide)).symm
  have b := (dig_mod_ne (n := n / 100) (c := ':') (by decide)).symm
  have c := (dig_mod_ne (n := n / 10) (c := ':') (by decide)).symm
  have d := (dig_mod_ne (n := n) (c := ':') (by decide)).symm
  cases neg <;> simp [signed, pad4, a, b, c, d]

theorem colon_sign {neg : Bool} {s : Str} (h : ':' ∉ s) : ':' ∉ signed neg s := by
  cases neg <;> simp [signed, h]

/-- Every text but a time of day has whole days and no colon. -/
theorem denotes_lit {s : Str} {d : EDTFDate} (hd : Denotes f s d) :
    (':' ∈ s ∧ d.feature = c! "Date and Time" ∧ ∃ i, Timed d i i) ∨ (':' ∉ s ∧ ∃ S E, d.start = some S ∧ d.stop = some E ∧ Lit S E) := by
  have hx : ∀ x : Date0, ':' ∉ x.text := fun x => date0_not_mem x (by decide) (by decide)
  have he : ∀ {e : Endpoint}, e.shape → ':' ∉ e.text := fun h => e_not_mem h (by decide) (by decide) (by decide)
  have hq : ∀ {q : Char}, q ∈ c! "?~%" → ':' ≠ q := by
    intro q hq e
    subst e
    revert hq
    decide
  have hs : ∀ {x : Str}, x = [] ∨ x = c! ".." → ':' ∉ x := by rintro x (rfl | rfl) <;> decide
  cases hd with
  | time neg y m d hh mi ss z hy V k1 k2 k3 hz y' m' d' hh' mi' ss' V' k1' k2' k3' e =>
    left
    refine ⟨?_, rfl, _, ⟨_, ⟨_, rfl, rfl⟩, rfl, rfl, rfl⟩, _, ⟨_, rfl, rfl⟩, rfl, rfl, rfl⟩
    unfold clockText hmsText
    simp
  | unknown => exact .inr ⟨by decide, _, _, rfl, rfl, _, _, rfl, rfl, opens_unknown⟩
  | opened => exact .inr ⟨by decide, _, _, rfl, rfl, _, _, rfl, rfl, opens_open⟩
  | date x h => exact .inr ⟨hx x, _, _, rfl, rfl, _, _, rfl, rfl, opens_day, closes_day⟩
  | interval a b ha hb ra rb R S hR hS =>
    exact .inr ⟨by simp [he ha, he hb], _, _, rfl, rfl, lit_both (rangeOf_lit hR) (rangeOf_lit hS)⟩
  | startless l hl x h =>
    refine .inr ⟨?_, _, _, rfl, rfl, ?_⟩
    · rcases hl with rfl | rfl <;> simp [Side.text, hx]
    · rcases hl with rfl | rfl
      · exact ⟨_, _, rfl, rfl, opens_open.1, closes_day⟩
      · exact ⟨_, _, rfl, rfl, opens_unknown.1, closes_day⟩
  | endless neg n h r hr =>
    refine .inr ⟨?_, _, _, rfl, rfl, ?_⟩
    · rcases hr with rfl | rfl <;> simp [Side.text, hx]
    · rcases hr with rfl | rfl
      · exact ⟨_, _, rfl, rfl, opens_day, opens_open.2⟩
      · exact ⟨_, _, rfl, rfl, opens_day, opens_unknown.2⟩
  | qualifiedYear neg n h q hq' => exact .inr ⟨by simp [hx, hq hq'], _, _, rfl, rfl, _, _, rfl, rfl, opens_day, closes_day⟩
  | group e h hn hX hl he' S E hs => exact .inr ⟨he h, _, _, rfl, rfl, spanOf_lit hs⟩
  | individual e h hn hX hr hl S E hs => exact .inr ⟨he h, _, _, rfl, rfl, spanOf_lit hs⟩
  | unspecified x h hn hX S E hs =>
    refine .inr ⟨?_, _, _, rfl, rfl, spanOf_lit hs⟩
    generalize x.text = t at hs
    cases hs with
    | date e h' y1 m1 d1 y2 m2 d2 hr => exact he h'
  | month neg n m hn h1 h2 y hv hy t ht =>
    refine .inr ⟨?_, _, _, rfl, rfl, lit_range⟩
    have : ':' ∉ t := by
      cases ht with
      | qualifier _ q h => simp [hq h]
      | dayQualifier _ d h1 h2 q h => simp [hq h, colon_pad2]
      | ended _ t h => simp [hs h]
      | dayEnded _ d h1 h2 t h => simp [hs h, colon_pad2]
      | loose a b h =>
        intro k
        simp only [List.mem_cons, List.not_mem_nil, or_false] at k
        unfold LooseDay at h
        rcases k with k | rfl | rfl
        · revert k; decide
        · revert h; simp [isDig]
        · revert h; simp [isDig]
    simp [colon_year, colon_pad2, this]
  | season neg n hn z y hv hy hz => exact .inr ⟨by simp [colon_year, colon_pad2], _, _, rfl, rfl, lit_range⟩
  | seasonName z w t1 t2 n hw h1 h2 hn hz =>
    refine .inr ⟨?_, _, _, rfl, rfl, lit_range⟩
    have b : ∀ {t : Str}, Blank t → ':' ∉ t := by
      intro t h k
      have := h _ k
      revert this
      decide
    have w' : ':' ∉ w := folded_not hw (by decide) (by cases z <;> decide)
    have p : ':' ∉ pad4 n := colon_year false n
    simp [b h1, b h2, w', p]
  | letter neg n h => exact .inr ⟨by simp [hx], _, _, rfl, rfl, _, _, rfl, rfl, opens_day, closes_day⟩
  | exponential yc ec hy he' neg ms es hm hes b n h1 h2 hv =>
    refine .inr ⟨?_, _, _, rfl, rfl, _, _, rfl, rfl, opens_day, closes_day⟩
    have e1 : ':' ≠ yc := by rintro rfl; revert hy; decide
    have e2 : ':' ≠ ec := by rintro rfl; revert he'; decide
    have := colon_sign (neg := neg) (s := ms.map dig ++ ec :: es.map dig) (by simp [colon_digits ms hm.2, colon_digits es hes.2, e2])
    simp [e1, this]
  | significant t v h ds hd a b hk =>
    refine .inr ⟨?_, _, _, rfl, rfl, lit_range⟩
    have : ':' ∉ t := by
      cases h with
      | date neg n h => exact colon_year neg n
      | letter neg us hu hl =>
        have := colon_sign (neg := neg) (colon_digits us hu.2)
        simp [this]
      | exponential yc ec hy he' neg ms es hm hes v hv =>
        have e1 : ':' ≠ yc := by rintro rfl; revert hy; decide
        have e2 : ':' ≠ ec := by rintro rfl; revert he'; decide
        have := colon_sign (neg := neg) (s := ms.map dig ++ ec :: es.map dig) (by simp [colon_digits ms hm.2, colon_digits es hes.2, e2])
        simp [e1, this]
    simp [this, colon_digits ds hd.2]
  | grouping n hn g hg =>
    have p : ':' ∉ pad4 n := colon_year false n
    exact .inr ⟨by simp [p, colon_pad2], _, _, rfl, rfl, lit_range⟩
  | set o c hb cs hc S E hm =>
    refine .inr ⟨?_, _, _, rfl, rfl, lit_setSpan hm⟩
    have e1 : ':' ≠ o := by rintro rfl; revert hb; unfold Brackets; simp
    have e2 : ':' ≠ c := by rintro rfl; revert hb; unfold Brackets; simp
    have r : ∀ r, ':' ∉ runText r := fun r => runText_not_mem r (by decide) (by decide)
    have j : ∀ l : List Str, (∀ t ∈ l, ':' ∉ t) → ':' ∉ commaJoin l := by
      intro l
      induction l with
      | nil => intro _; simp [commaJoin]
      | cons x l ih =>
        intro h
        cases l with
        | nil => simpa [commaJoin] using h x (by simp)
        | cons z l =>
          have a := h x (by simp)
          have b := ih (fun t ht => h t (List.mem_cons_of_mem _ ht))
          simp [commaJoin, a, b]
    have := j (cs.map Chunk.text) (by
      intro t ht
      obtain ⟨x, -, rfl⟩ := List.mem_map.1 ht
      cases x <;> simp [Chunk.text, r])
    simp [e1, e2, this]

/-- What a time of day stands for. -/
theorem at_denotes {s : Str} {d : EDTFDate} (hd : Denotes f s d) (hc : d.feature = c! "Date and Time") :
    ∃ (neg : Bool) (y m dd hh mi ss : Nat) (z : Zone) (_ : y < 10000) (_ : Valid y m dd) (_ : hh < 24) (_ : mi < 60) (_ : ss < 60) (_ : z.ok)
      (y' : Int) (m' d' hh' mi' ss' : Nat) (_ : Valid y' m' d') (_ : hh' < 24) (_ : mi' < 60) (_ : ss' < 60)
      (_ : 86400 * f y' m' d' + (3600 * hh' + 60 * mi' + ss') = 86400 * f y m dd + (3600 * hh + 60 * mi + ss) - z.offset),
      s = clockText neg y m dd hh mi ss z ∧ d = instantResult s { dated f (if neg then -y' else y') m' d' hh' mi' ss' 0 0 0 with ymd := none } := by
  cases hd <;> first
    | exact ⟨_, _, _, _, _, _, _, _, ‹_›, ‹_›, ‹_›, ‹_›, ‹_›, ‹_›, _, _, _, _, _, _, ‹_›, ‹_›, ‹_›, ‹_›, ‹_›, rfl, rfl⟩
    | (exfalso; revert hc; simp [Date0.result, instantResult, monthsResult]; done)
    | (exfalso; revert hc; dsimp only; split <;> simp; done)

theorem bd_dawn (hf : DayCount f) {b : Date} {i : Int} (h : Bd b) (o : Opens b) (e : b.timestamp = some i) : Dawn f i := by
  have o := o i e
  rcases h with ⟨y, m, d, hh, mi, ss, u, a, p, i, V, hy, h1, h2, h3, rfl⟩ | ⟨i, rfl⟩ | ⟨i, rfl⟩
  · injection e with e
    refine ⟨y, m, d, V, by omega, by omega, ?_⟩
    rw [dayCount_eq hf V]
    have e : 86400 * U y m d + (3600 * hh + 60 * mi + ss : Nat) = _ := e
    have : U y m d = unixDay y m d := rfl
    omega
  · cases e
  · cases e

theorem bd_dusk (hf : DayCount f) {b : Date} {i : Int} (h : Bd b) (o : Closes b) (e : b.timestamp = some i) : Dusk f i := by
  have o := o i e
  rcases h with ⟨y, m, d, hh, mi, ss, u, a, p, i, V, hy, h1, h2, h3, rfl⟩ | ⟨i, rfl⟩ | ⟨i, rfl⟩
  · injection e with e
    refine ⟨y, m, d, V, by omega, by omega, ?_⟩
    rw [dayCount_eq hf V]
    have e : 86400 * U y m d + (3600 * hh + 60 * mi + ss : Nat) = _ := e
    have : U y m d = unixDay y m d := rfl
    omega
  · cases e
  · cases e

/-- A text without a colon is no time of day. -/
theorem whole_bd {s : Str} {d : EDTFDate} (h : parseString s = .ok d) (hc : ':' ∉ s) : ∃ S E a b, d.start = some S ∧ d.stop = some E ∧
    S.lower = some a ∧ E.upper = some b ∧ Opens a ∧ Closes b ∧ Bd a ∧ Bd b := by
  rcases denotes_lit ((C55_denotes (f := U) dayCount_unixDay s d).1 h) with ⟨k, -, -⟩ | ⟨-, S, E, h1, h2, a, b, h3, h4, h5, h6⟩
  · exact absurd k hc
  rcases parse_shape h with ⟨ea, eb, al, au, bl, bu, k1, k2, b1, b2, b3, b4⟩ | ⟨y, m, dd, hh, mi, ss, V, -, -, -, -, -, e⟩
  · rw [h1] at k1; rw [h2] at k2
    cases k1; cases k2
    cases h3; cases h4
    exact ⟨_, _, _, _, h1, h2, rfl, rfl, h5, h6, b1, b4⟩
  · exfalso
    have : d.feature = c! "Date and Time" := by rw [e]; rfl
    have e1 : d.lower = .ok (86400 * U y m dd + (3600 * hh + 60 * mi + ss : Nat)) := by rw [e]; rfl
    have e2 : d.upper = .ok (86400 * U y m dd + (3600 * hh + 60 * mi + ss : Nat)) := by rw [e]; rfl
    obtain ⟨neg, y, m, d, hh, mi, ss, z, -, -, -, -, -, -, e⟩ := at_text (f := U) dayCount_unixDay ⟨d, h, this, e1, e2⟩
    apply hc
    rw [e]
    unfold clockText hmsText
    simp

/-- **C100.** A text without a colon lasts whole days: if it has a first second, this is the first
second of a day, and if it has a last second, this is the last second of a day, of the years
-9999 to 9999. -/
theorem C100_days (hf : DayCount f) {s : Str} (hc : ':' ∉ s) {i : Int} : (FirstOf s (some i) → Dawn f i) ∧ (LastOf s (some i) → Dusk f i) := by
  constructor
  · rintro ⟨d, a, b, c, h, k⟩
    obtain ⟨S, E, x, z, h1, h2, h3, h4, h5, h6, h7, h8⟩ := whole_bd h hc
    obtain ⟨_, _, _, _, _, _, g1, g2, t, -⟩ := k
    rw [h1] at g1
    cases g1; cases h3
    exact bd_dawn hf h7 h5 t
  · rintro ⟨d, a, b, c, h, k⟩
    obtain ⟨S, E, x, z, h1, h2, h3, h4, h5, h6, h7, h8⟩ := whole_bd h hc
    obtain ⟨_, _, _, _, _, _, g1, g2, -, -, -, t⟩ := k
    rw [h2] at g2
    cases g2; cases h4
    exact bd_dusk hf h8 h6 t

/-- A season, by name; a set; an interval that is open at its end. -/
example : FirstOf (c! "winTER,1985") (some 502243200) ∧ LastOf (c! "{1985,1987-04}") (some 546825599) ∧ FirstOf (c! "1985/..") (some 473385600) :=
  ⟨⟨_, _, _, _, rfl, _, _, _, _, _, _, rfl, rfl, rfl, rfl, rfl, rfl⟩, ⟨_, _, _, _, rfl, _, _, _, _, _, _, rfl, rfl, rfl, rfl, rfl, rfl⟩,
    ⟨_, _, _, _, rfl, _, _, _, _, _, _, rfl, rfl, rfl, rfl, rfl, rfl⟩⟩

/-- C100: a text with a colon that is understood lasts one second. -/
theorem C100_colon {s : Str} {d : EDTFDate} (h : parseString s = .ok d) (hc : ':' ∈ s) : ∃ i, Spans s i i := by
  rcases denotes_lit ((C55_denotes (f := U) dayCount_unixDay s d).1 h) with ⟨-, -, i, k⟩ | ⟨k, -⟩
  · obtain ⟨k1, k2⟩ := timed_lower k
    exact ⟨i, d, h, k1, k2⟩
  · exact absurd hc k

example : ∃ d, parseString (c! "-0044-03-15T12:00:00+24:60") = .ok d := ⟨_, rfl⟩

/-- C100: whatever has a first and a last second, and no colon, lasts a whole number of days (which
is negative if it ends before it starts). -/
theorem C100_length {s : Str} {l u : Int} (h : Spans s l u) (hc : ':' ∉ s) : ∃ n : Int, u + 1 - l = 86400 * n := by
  obtain ⟨h1, h2⟩ := spans_ends h
  obtain ⟨_, _, _, -, -, -, e1⟩ := (C100_days (f := U) dayCount_unixDay hc).1 h1
  obtain ⟨_, _, _, -, -, -, e2⟩ := (C100_days (f := U) dayCount_unixDay hc).2 h2
  exact ⟨(u + 1) / 86400 - l / 86400, by omega⟩

example : Spans (c! "1985-04/1985-03") 481161600 481161599 ∧ Spans (c! "1985-04-XX") 481161600 (481161600 + 30 * 86400 - 1) :=
  ⟨⟨_, rfl, by decide +kernel, by decide +kernel⟩, _, rfl, by decide +kernel, by decide +kernel⟩

/-- C100: between texts without a colon, "before" compares days: the last day of the first text is an
earlier one than the first day of the second. -/
theorem C100_before {s t : Str} {l u l' u' : Int} (h : Spans s l u) (h' : Spans t l' u') (hc : ':' ∉ s) (hc' : ':' ∉ t) :
    Precedes s t ↔ u / 86400 < l' / 86400 := by
  rw [precedes_iff h h']
  obtain ⟨_, _, _, -, -, -, e1⟩ := (C100_days (f := U) dayCount_unixDay hc).2 (spans_ends h).2
  obtain ⟨_, _, _, -, -, -, e2⟩ := (C100_days (f := U) dayCount_unixDay hc').1 (spans_ends h').1
  omega

example : Spans (c! "1985-04-XX") 481161600 483753599 ∧ Spans (c! "1985-05") 483753600 486431999 :=
  ⟨⟨_, rfl, by decide +kernel, by decide +kernel⟩, _, rfl, by decide +kernel, by decide +kernel⟩

/-! ### Which seconds can be written -/

theorem offset_bound {z : Zone} (h : z.ok) : -90000 ≤ z.offset ∧ z.offset ≤ 90000 := by
  cases z with
  | none => simp [Zone.offset]
  | utc => simp [Zone.offset]
  | hours n a =>
    have : a ≤ 24 := h
    unfold Zone.offset
    dsimp only
    split <;> omega
  | full n a b =>
    obtain ⟨h1, h2⟩ := h
    unfold Zone.offset
    dsimp only
    split <;> omega

/-- Every number of minutes up to 25 hours can be written as an offset. -/
theorem minutes_zone {q : Nat} (h : q ≤ 1500) : ∃ z : Zone, z.ok ∧ z.offset = -(60 * q : Int) := by
  by_cases e : q = 1500
  · exact ⟨.full true 24 60, by decide, by subst e; decide⟩
  · refine ⟨.full true (q / 60) (q % 60), ⟨by omega, by omega⟩, ?_⟩
    unfold Zone.offset
    simp only [if_true]
    omega

/-- The last minute of the year 9999, with an offset. -/
theorem late_written (hf : DayCount f) (neg : Bool) {k : Nat} (hk : k < 90000) :
    ∃ t, Spans t (86400 * f (if neg then -10000 else 10000) 1 1 + k) (86400 * f (if neg then -10000 else 10000) 1 1 + k) := by
  obtain ⟨z, hz, ez⟩ := minutes_zone (q := k / 60 + 1) (by omega)
  have e1 : f 10000 1 1 = f 9999 12 31 + 1 := hf.next_year 9999
  have e2 : f 10000 1 2 = f 10000 1 1 + 1 := hf.next_day 10000 1 1 (by decide) (by decide)
  have e3 : f (-10000) 1 2 = f (-10000) 1 1 + 1 := hf.next_day (-10000) 1 1 (by decide) (by decide)
  obtain ⟨d', j, hd, hj, ek⟩ : ∃ d' j : Nat, (d' = 1 ∨ d' = 2) ∧ j < 86400 ∧ 86400 * (d' - 1) + j = k := by
    by_cases h : k < 86400
    · exact ⟨1, k, .inl rfl, h, by omega⟩
    · exact ⟨2, k - 86400, .inr rfl, by omega, by omega⟩
  have V' : Valid 10000 1 d' := by rcases hd with rfl | rfl <;> decide
  have ed : f 10000 1 d' = f 10000 1 1 + (d' - 1 : Nat) := by
    rcases hd with rfl | rfl
    · simp
    · exact e2
  have ed' : f (-10000) 1 d' = f (-10000) 1 1 + (d' - 1 : Nat) := by
    rcases hd with rfl | rfl
    · simp
    · exact e3
  have key := Denotes.time (f := f) neg 9999 12 31 23 59 (k % 60) z (by decide) (by decide) (by decide) (by decide) (by omega) hz
    10000 1 d' (j / 3600) (j / 60 % 60) (j % 60) V' (by omega) (by omega) (by omega) (by
      have : f (9999 : Nat) 12 31 = f 9999 12 31 := rfl
      rw [ez, ed, this]
      omega)
  refine ⟨_, _, (C55_denotes hf _ _).2 key, ?_, ?_⟩
  all_goals
    refine congrArg Res.ok (show 86400 * f _ 1 d' + (3600 * (j / 3600) + 60 * (j / 60 % 60) + j % 60 : Nat) = _ from ?_)
    cases neg
    · simp only [Bool.false_eq_true, if_false]
      rw [ed]
      omega
    · simp only [if_true]
      rw [ed']
      omega

/-- **C100.** The seconds for which there is a text that lasts this second only: with offsets of up to
25 hours, a little more than a day of the year 10000 and of the year -10000 can be written, but
nothing else of them. -/
theorem C100_seconds (hf : DayCount f) (i : Int) : (∃ s, Spans s i i) ↔ Reachable f i := by
  constructor
  · rintro ⟨s, h⟩
    by_cases hc : ':' ∈ s
    · obtain ⟨d, p, h1, h2⟩ := h
      have hD := (C55_denotes hf s d).1 p
      have : ∃ (neg : Bool) (y m dd hh mi ss : Nat) (z : Zone) (y' : Int) (m' d' hh' mi' ss' : Nat), y < 10000 ∧ Valid y m dd ∧ hh < 24 ∧ mi < 60 ∧ ss < 60 ∧ z.ok ∧
          Valid y' m' d' ∧ hh' < 24 ∧ mi' < 60 ∧ ss' < 60 ∧
          86400 * f y' m' d' + (3600 * hh' + 60 * mi' + ss') = 86400 * f y m dd + (3600 * hh + 60 * mi + ss) - z.offset ∧
          i = 86400 * f (if neg then -y' else y') m' d' + (3600 * hh' + 60 * mi' + ss') := by
        have ft : d.feature = c! "Date and Time" := by
          rcases denotes_lit hD with ⟨-, h, -⟩ | ⟨h, -⟩
          · exact h
          · exact absurd hc h
        obtain ⟨neg, y, m, dd, hh, mi, ss, z, hy, V, k1, k2, k3, hz, y', m', d', hh', mi', ss', V', k1', k2', k3', e, es, ed⟩ := at_denotes hD ft
        refine ⟨neg, y, m, dd, hh, mi, ss, z, y', m', d', hh', mi', ss', hy, V, k1, k2, k3, hz, V', k1', k2', k3', e, ?_⟩
        rw [ed] at h1
        have h1 : Res.ok (86400 * f (if neg then -y' else y') m' d' + (3600 * hh' + 60 * mi' + ss' : Nat)) = Res.ok i := h1
        injection h1 with h1
        omega
      obtain ⟨neg, y, m, dd, hh, mi, ss, z, y', m', d', hh', mi', ss', hy, V, k1, k2, k3, hz, V', k1', k2', k3', e, ei⟩ := this
      obtain ⟨o1, o2⟩ := offset_bound hz
      have hv := V
      obtain ⟨v1, v2, v3, v4⟩ := hv
      obtain ⟨w1, w2, w3, w4⟩ := id V'
      have a1 := day_order hf (show Valid 0 1 1 by decide) V (by unfold dayLe; omega)
      have a2 := day_lt hf V (show Valid 10000 1 1 by decide) (.inl (by omega))
      have lower : -1 ≤ y' := by
        by_cases hn : y' < -1
        · have b1 := day_lt hf V' (show Valid (-1) 1 1 by decide) (.inl hn)
          have b2 := day_lt hf (show Valid (-1) 1 3 by decide) (show Valid 0 1 1 by decide) (.inl (by decide))
          have b3 : f (-1) 1 2 = f (-1) 1 1 + 1 := hf.next_day (-1) 1 1 (by decide) (by decide)
          have b4 : f (-1) 1 3 = f (-1) 1 2 + 1 := hf.next_day (-1) 1 2 (by decide) (by decide)
          omega
        · omega
      have upper : y' ≤ 10000 := by
        by_cases hn : 10000 < y'
        · have b1 := day_order hf (show Valid 10001 1 1 by decide) V' (by unfold dayLe; omega)
          have b2 := day_lt hf (show Valid 10000 1 3 by decide) (show Valid 10001 1 1 by decide) (.inl (by decide))
          have b3 : f 10000 1 2 = f 10000 1 1 + 1 := hf.next_day 10000 1 1 (by decide) (by decide)
          have b4 : f 10000 1 3 = f 10000 1 2 + 1 := hf.next_day 10000 1 2 (by decide) (by decide)
          omega
        · omega
      cases neg with
      | false =>
        left
        simp only [Bool.false_eq_true, if_false] at ei
        have b1 := day_order hf (show Valid (-9999) 1 1 by decide) V' (by unfold dayLe; omega)
        omega
      | true =>
        simp only [if_true] at ei
        by_cases h0 : y' ≤ 9999
        · left
          have Vn : Valid (-y') m' d' := ⟨w1, w2, w3, by rw [monthLen_neg]; exact w4⟩
          have b1 := day_order hf (show Valid (-9999) 1 1 by decide) Vn (by unfold dayLe; omega)
          have b2 := day_lt hf Vn (show Valid 10000 1 1 by decide) (.inl (by omega))
          omega
        · right
          have : y' = 10000 := by omega
          subst this
          have Vn : Valid (-10000) m' d' := ⟨w1, w2, w3, by rw [show (-10000 : Int) = -(10000 : Int) from rfl, monthLen_neg]; exact w4⟩
          have m1 := day_move hf 50 Vn
          have m2 := day_move hf 50 (show Valid (-10000) 1 1 by decide)
          have b1 := day_order hf (show Valid (-10000) 1 1 by decide) Vn (by unfold dayLe; omega)
          rw [show (-10000 + 400 * 50 : Int) = 10000 from rfl] at m1 m2
          omega
    · left
      obtain ⟨y, m, d, V, h1, h2, e⟩ := (C100_days hf hc).1 (spans_ends h).1
      obtain ⟨v1, v2, v3, v4⟩ := id V
      have b1 := day_order hf (show Valid (-9999) 1 1 by decide) V (by unfold dayLe; omega)
      have b2 := day_lt hf V (show Valid 10000 1 1 by decide) (.inl (by omega))
      omega
  · rintro (⟨h1, h2⟩ | ⟨h1, h2⟩)
    · by_cases h : i < 86400 * f 10000 1 1
      · obtain ⟨t, ⟨d, p, -, k1, k2⟩, -⟩ := C94_every hf h1 h
        exact ⟨t, d, p, k1, k2⟩
      · obtain ⟨t, ht⟩ := late_written hf false (k := (i - 86400 * f 10000 1 1).toNat) (by omega)
        simp only [Bool.false_eq_true, if_false] at ht
        rw [show 86400 * f 10000 1 1 + ((i - 86400 * f 10000 1 1).toNat : Int) = i by omega] at ht
        exact ⟨t, ht⟩
    · obtain ⟨t, ht⟩ := late_written hf true (k := (i - 86400 * f (-10000) 1 1).toNat) (by omega)
      simp only [if_true] at ht
      rw [show 86400 * f (-10000) 1 1 + ((i - 86400 * f (-10000) 1 1).toNat : Int) = i by omega] at ht
      exact ⟨t, ht⟩

/-- The last second that can be written, and the first of the year -10000. -/
example : Spans (c! "9999-12-31T23:59:59-24:60") (86400 * U 10000 1 1 + 89999) (86400 * U 10000 1 1 + 89999) ∧
    Spans (c! "-9999-12-31T23:59:00-00:01") (86400 * U (-10000) 1 1) (86400 * U (-10000) 1 1) :=
  ⟨⟨_, rfl, by decide +kernel, by decide +kernel⟩, _, rfl, by decide +kernel, by decide +kernel⟩

theorem day_written {y : Int} {m d : Nat} (V : Valid y m d) (h1 : -9999 ≤ y) (h2 : y ≤ 9999) : ∃ x : Date0, x.ok ∧ x.value = y ∧ x.first = (m, d) ∧ x.last = (m, d) := by
  refine ⟨⟨decide (y < 0), y.natAbs, .day m d⟩, ⟨by show y.natAbs < 10000; omega, ?_⟩, ?_, rfl, rfl⟩
  · show Valid (Date0.value ⟨decide (y < 0), y.natAbs, .day m d⟩) m d
    have : Date0.value ⟨decide (y < 0), y.natAbs, .day m d⟩ = y := by
      unfold Date0.value
      simp only [decide_eq_true_eq]
      split <;> omega
    rw [this]
    exact V
  · unfold Date0.value
    simp only [decide_eq_true_eq]
    split <;> omega

/-- **C100.** The times that texts can stand for, exactly: one second that can be written, or from the
beginning of some day to the end of some day, of the years -9999 to 9999.  All of them occur. -/
theorem C100_times (hf : DayCount f) (l u : Int) : (∃ s, Spans s l u) ↔ (l = u ∧ Reachable f l) ∨ (Dawn f l ∧ Dusk f u) := by
  constructor
  · rintro ⟨s, h⟩
    by_cases hc : ':' ∈ s
    · obtain ⟨d, p, -⟩ := id h
      obtain ⟨i, hi⟩ := C100_colon p hc
      obtain ⟨rfl, rfl⟩ := spans_unique h hi
      exact .inl ⟨rfl, (C100_seconds hf _).1 ⟨s, h⟩⟩
    · exact .inr ⟨(C100_days hf hc).1 (spans_ends h).1, (C100_days hf hc).2 (spans_ends h).2⟩
  · rintro (⟨rfl, h⟩ | ⟨⟨y, m, d, V, h1, h2, rfl⟩, y', m', d', V', h1', h2', rfl⟩)
    · exact (C100_seconds hf l).2 h
    · obtain ⟨a, ha, e1, e2, -⟩ := day_written V h1 h2
      obtain ⟨b, hb, e3, -, e4⟩ := day_written V' h1' h2'
      obtain ⟨r, h, k1, k2⟩ := C08_bounds hf ha hb
      rw [e1, e2] at k1
      rw [e3, e4] at k2
      exact ⟨_, r, h, k1, k2⟩

/-- A time in two days and nothing of a day. -/
example : Dawn U (86400 * U 2000 2 29) ∧ Dusk U (86400 * U 2001 1 1 + 86399) ∧ ¬ ∃ s, Spans s 0 43199 := by
  refine ⟨⟨2000, 2, 29, by decide, by decide, by decide, rfl⟩, ⟨2001, 1, 1, by decide, by decide, by decide, rfl⟩, fun k => ?_⟩
  rcases (C100_times (f := U) dayCount_unixDay _ _).1 k with ⟨k, -⟩ | ⟨-, y, m, d, -, -, -, e⟩
  · revert k; decide
  · omega

end EDTF
