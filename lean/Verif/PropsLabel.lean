/- C89: the labels of the ranges. -/
import Verif.LemmasLabel
namespace EDTF
open Spec

variable {f : Int → Nat → Nat → Int}

/-! ### Labels -/

/-- The label of `r` names it: the parser takes the label, and the time from its
first to its last moment contains `r`. -/
def Named (r : DateRange) : Prop :=
  ∃ (d : EDTFDate) (S E : DateRange) (a b : Date), parseString r.edtf = .ok d ∧ d.start = some S ∧ d.stop = some E ∧ S.lower = some a ∧
    E.upper = some b ∧ Between a b r

theorem named_iff (hf : DayCount f) {r : DateRange} : Named r ↔ Names f r.edtf r := by
  constructor
  · rintro ⟨d, S, E, a, b, h, k⟩
    exact ⟨d, S, E, a, b, (C55_denotes hf _ _).1 h, k⟩
  · rintro ⟨d, S, E, a, b, h, k⟩
    exact ⟨d, S, E, a, b, (C55_denotes hf _ _).2 h, k⟩

/-- An empty label names only an unknown range. -/
theorem named_empty {r : DateRange} (h : Named r) (he : r.edtf = []) : ∃ l u : Date, r.lower = some l ∧ r.upper = some u ∧ l.unknown = true ∧ u.unknown = true := by
  obtain ⟨d, S, E, a, b, h, hS, hE, ha, hb, l, u, hl, hu, k⟩ := (named_iff dayCount_unixDay).1 h
  rw [he] at h
  have := C55_unique dayCount_unixDay h .unknown
  subst this
  cases hS
  cases hE
  cases ha
  cases hb
  rcases k with ⟨_, _, _, _, k, -⟩ | ⟨k, -⟩ | ⟨-, -, k1, k2⟩
  · cases k
  · cases k
  · exact ⟨l, u, hl, hu, k1, k2⟩

theorem months_named (hf : DayCount f) {s k : Str} {n : Int} {y1 y2 : Int} {m1 m2 : Nat} (h1 : y1.natAbs < 10000) (h2 : y2.natAbs < 10000)
    (a1 : 1 ≤ m1) (b1 : m1 ≤ 12) (a2 : 1 ≤ m2) (b2 : m2 ≤ 12) {S E : DateRange} (hS : (monthsResult f s n k y1 m1 y2 m2).start = some S)
    (hE : (monthsResult f s n k y1 m1 y2 m2).stop = some E) : Names f S.edtf S ∧ Names f E.edtf E := by
  cases hS
  cases hE
  exact ⟨names_range (dayOf_ok h1 (valid_first a1 b1)), names_range (dayOf_ok h2 (valid_last a2 b2))⟩

theorem range_readable (hf : DayCount f) {e : Endpoint} (h : e.shape) {R : DateRange} (hR : RangeOf f e.text R) : e.Readable := by
  generalize ht : e.text = t at hR
  cases hR with
  | absent => exact absurd ht (e_nonempty h)
  | date e' h' y1 m1 d1 y2 m2 d2 hr =>
    have := SpanOf.date (f := f) e' h' y1 m1 d1 y2 m2 d2 hr
    rw [← ht] at this
    exact span_readable hf h this

theorem sig_ok {v : Int} {k : Nat} {a b : Date0} (h : SigYears v k a b) : a.ok ∧ b.ok := by
  have tens : ∀ {n k : Nat}, n ≤ 9999 → k ≤ 4 → n / 10 ^ k * 10 ^ k + (10 ^ k - 1) < 10000 := by
    intro n k hn hk
    have : k = 0 ∨ k = 1 ∨ k = 2 ∨ k = 3 ∨ k = 4 := by omega
    rcases this with rfl | rfl | rfl | rfl | rfl <;> omega
  cases h with
  | pos n k h1 h2 hk => have := tens h2 hk; exact ⟨⟨by simp only; omega, trivial⟩, this, trivial⟩
  | neg n k h1 h2 hk => have := tens h2 hk; exact ⟨⟨this, trivial⟩, by simp only; omega, trivial⟩
  | sign n h1 h2 => exact ⟨⟨by decide, trivial⟩, by decide, trivial⟩

theorem year_named {neg : Bool} {n : Nat} (hx : (⟨neg, n, .none⟩ : Date0).ok)
    (le : f (⟨neg, n, .none⟩ : Date0).value 1 1 ≤ f (⟨neg, n, .none⟩ : Date0).value 12 31) {u a p u' a' p' : Prec} :
    Names f (⟨neg, n, .none⟩ : Date0).text ⟨(⟨neg, n, .none⟩ : Date0).text, some (dayStart f (⟨neg, n, .none⟩ : Date0).value 1 1 u a p),
        some (dayEnd f (⟨neg, n, .none⟩ : Date0).value 1 1 u a p)⟩ ∧
      Names f (⟨neg, n, .none⟩ : Date0).text ⟨(⟨neg, n, .none⟩ : Date0).text, some (dayStart f (⟨neg, n, .none⟩ : Date0).value 12 31 u' a' p'),
        some (dayEnd f (⟨neg, n, .none⟩ : Date0).value 12 31 u' a' p')⟩ := by
  have h1 : firstSecond f (⟨neg, n, .none⟩ : Date0) = 86400 * f (⟨neg, n, .none⟩ : Date0).value 1 1 := rfl
  have h2 : lastSecond f (⟨neg, n, .none⟩ : Date0) = 86400 * f (⟨neg, n, .none⟩ : Date0).value 12 31 + 86399 := rfl
  exact ⟨names_date hx rfl rfl (ts_start ..) (ts_end ..) (by rw [h1]; exact Int.le_refl _) (by rw [h2]; omega),
    names_date hx rfl rfl (ts_start ..) (ts_end ..) (by rw [h1]; omega) (by rw [h2]; exact Int.le_refl _)⟩

theorem span_label {t : Str} {S E : DateRange} (h : SpanOf f t S E) : S.edtf = t ∧ E.edtf = t := by
  cases h
  exact ⟨rfl, rfl⟩

/-- Where both labels name their ranges. -/
theorem denotes_names (hf : DayCount f) {s : Str} {d : EDTFDate} (h : Denotes f s d) (hnu : ¬ Unnamed s) {S E : DateRange} (hS : d.start = some S)
    (hE : d.stop = some E) : Names f S.edtf S ∧ Names f E.edtf E := by
  cases h with
  | unknown => cases hS; cases hE; exact ⟨names_unknown, names_unknown⟩
  | opened => exact absurd .opened hnu
  | date x h =>
    have := names_result hf h (.date x h) hS hE
    cases hS; cases hE
    exact this
  | time neg y m d hh mi ss z hy V k1 k2 k3 hz => exact absurd (.time neg y m d hh mi ss z hy V k1 k2 k3 hz) hnu
  | interval a b ha hb ra rb R S hR hS' =>
    cases hS; cases hE
    have ha := range_readable hf ha hR
    have hb := range_readable hf hb hS'
    have al : a.alone ∧ b.alone := by
      refine Classical.byContradiction fun k => hnu (.interval a b ha hb ra rb ?_)
      by_cases k' : a.alone
      · exact .inr fun k'' => k ⟨k', k''⟩
      · exact .inl k'
    rw [range_label hR, range_label hS']
    exact ⟨names_endpoint hf ha ra al.1 hR, names_endpoint hf hb rb al.2 hS'⟩
  | startless l hl x h =>
    cases hS; cases hE
    have e : (l.range f).edtf = l.text := by rcases hl with rfl | rfl <;> rfl
    rw [e]
    exact ⟨names_side hl, names_range h⟩
  | endless neg n h r hr =>
    cases hS; cases hE
    have e : (r.range f).edtf = r.text := by rcases hr with rfl | rfl <;> rfl
    rw [e]
    exact ⟨names_range ⟨h, trivial⟩, names_side hr⟩
  | qualifiedYear neg n h q hq =>
    have := names_result hf (x := ⟨neg, n, .none⟩) ⟨h, trivial⟩ (.qualifiedYear neg n h q hq) hS hE
    cases hS; cases hE
    exact this
  | group e h hn hX hl he S' E' hs =>
    have := names_span hf hs (.group e h hn hX hl he S' E' hs)
    cases hS; cases hE
    rw [(span_label hs).1, (span_label hs).2]
    exact this
  | individual e h hn hX hr hl S' E' hs =>
    have := names_span hf hs (.individual e h hn hX hr hl S' E' hs)
    cases hS; cases hE
    rw [(span_label hs).1, (span_label hs).2]
    exact this
  | unspecified x h hn hX S' E' hs =>
    have := names_span hf hs (.unspecified x h hn hX S' E' hs)
    cases hS; cases hE
    rw [(span_label hs).1, (span_label hs).2]
    exact this
  | month neg n m hn h1 h2 y hv hy t ht =>
    have : y.natAbs < 10000 := by subst hv; split <;> omega
    exact months_named hf this this h1 h2 h1 h2 hS hE
  | season neg n hn z y hv hy hz =>
    have hy' : y.natAbs < 10000 := by subst hv; split <;> omega
    cases z with
    | winter =>
      have := hz rfl
      exact months_named hf hy' (show (y + 1).natAbs < 10000 by omega) (by decide) (by decide) (by decide) (by decide) hS hE
    | spring => exact months_named hf hy' hy' (by decide) (by decide) (by decide) (by decide) hS hE
    | summer => exact months_named hf hy' hy' (by decide) (by decide) (by decide) (by decide) hS hE
    | fall => exact months_named hf hy' hy' (by decide) (by decide) (by decide) (by decide) hS hE
  | seasonName z w t1 t2 n hw h1 h2 hn hz =>
    have hy' : (n : Int).natAbs < 10000 := by omega
    cases z with
    | winter =>
      have := hz rfl
      exact months_named hf hy' (show ((n : Int) + 1).natAbs < 10000 by omega) (by decide) (by decide) (by decide) (by decide) hS hE
    | spring => exact months_named hf hy' hy' (by decide) (by decide) (by decide) (by decide) hS hE
    | summer => exact months_named hf hy' hy' (by decide) (by decide) (by decide) (by decide) hS hE
    | fall => exact months_named hf hy' hy' (by decide) (by decide) (by decide) (by decide) hS hE
  | letter neg n h =>
    have hx : (⟨neg, n, .none⟩ : Date0).ok := ⟨h, trivial⟩
    have le : f (⟨neg, n, .none⟩ : Date0).value 1 1 ≤ f (⟨neg, n, .none⟩ : Date0).value 12 31 :=
      day_order hf (Date0.valid_first hx) (Date0.valid_last hx) (first_le_last hx)
    cases hS; cases hE
    exact year_named hx le
  | exponential yc ec hy he neg ms es hm hes b n h1 h2 hv =>
    have hx : (⟨b, n, .none⟩ : Date0).ok := ⟨show n < 10000 by omega, trivial⟩
    have le : f (⟨b, n, .none⟩ : Date0).value 1 1 ≤ f (⟨b, n, .none⟩ : Date0).value 12 31 :=
      day_order hf (Date0.valid_first hx) (Date0.valid_last hx) (first_le_last hx)
    cases hS; cases hE
    exact year_named hx le
  | significant t v h ds hd a b hk =>
    cases hS; cases hE
    exact ⟨names_range (sig_ok hk).1, names_range (sig_ok hk).2⟩
  | grouping n hn g hg =>
    obtain ⟨t1, t2, t3, t4, t5, t6, t7, t8, t9⟩ := grouping_table g
    have hw : (g.lastDate n).ok := by
      unfold Grouping.lastDate
      by_cases hx : g.crosses = true
      · rw [if_pos hx]; exact ⟨by have := hg hx; show n + 1 < 10000; omega, t5, t6⟩
      · rw [if_neg hx]; exact ⟨hn, valid_last t5 t6⟩
    cases hS; cases hE
    exact ⟨names_range (dayOf_ok (by omega) (valid_first t3 t4)), names_range hw⟩
  | set o c hb cs hc S' E' hm =>
    cases hS; cases hE
    obtain ⟨t, ht, h0⟩ := chunk_member hc
    obtain ⟨sl, su, el, eu, -, -, -, -, -, mo⟩ := setSpan_ends hm ht h0
    exact names_set hf hc.1 hm fun k => Classical.byContradiction fun k' => hnu (.set o c hb cs hc mo (by omega) k)

/-- Where one of the labels does not. -/
theorem unnamed_not {s : Str} {d : EDTFDate} (h : parseString s = .ok d) (hu : Unnamed s) {S E : DateRange} (hS : d.start = some S)
    (hE : d.stop = some E) : ¬ (Named S ∧ Named E) := by
  have hf := dayCount_unixDay
  rintro ⟨nS, nE⟩
  have hd := (C55_denotes hf s d).1 h
  have un : ∀ {r : DateRange}, Named r → r.edtf = [] → (∃ l, r.lower = some l ∧ l.unknown = false) → False := by
    rintro r hr he ⟨l, hl, k⟩
    obtain ⟨l', u, hl', -, k', -⟩ := named_empty hr he
    rw [hl] at hl'
    cases hl'
    rw [k] at k'
    cases k'
  cases hu with
  | opened =>
    cases C55_unique hf hd .opened
    cases hS
    exact un nS rfl ⟨_, rfl, rfl⟩
  | time neg y m d' hh mi ss z hy V k1 k2 k3 hz =>
    obtain ⟨y', m', d'', V', e⟩ := exists_date (localTime y m d' hh mi ss z / 86400)
    obtain ⟨hh', mi', ss', k1', k2', k3', e'⟩ := exists_hms (r := localTime y m d' hh mi ss z % 86400) (by omega) (by omega)
    have e3 : 86400 * U y' m' d'' + (3600 * hh' + 60 * mi' + ss') = 86400 * U y m d' + (3600 * hh + 60 * mi + ss) - z.offset := by
      have : localTime y m d' hh mi ss z = unixDay y' m' d'' * 86400 + secOf hh' mi' ss' := by omega
      unfold localTime secOf at this
      show 86400 * unixDay y' m' d'' + _ = 86400 * unixDay y m d' + _ - _
      omega
    cases C55_unique hf hd (.time neg y m d' hh mi ss z hy V k1 k2 k3 hz y' m' d'' hh' mi' ss' V' k1' k2' k3' e3)
    cases hS
    exact un nS rfl ⟨_, rfl, rfl⟩
  | interval a b ha hb ra rb k =>
    obtain ⟨R, hR⟩ := range_exists U ha
    obtain ⟨R', hR'⟩ := range_exists U hb
    cases C55_unique hf hd (.interval a b ha.1 hb.1 ra rb R R' hR hR')
    cases hS; cases hE
    obtain ⟨d1, -, -, -, -, p1, -⟩ := nS
    obtain ⟨d2, -, -, -, -, p2, -⟩ := nE
    rw [range_label hR] at p1
    rw [range_label hR'] at p2
    rcases k with k | k
    · exact k (alone_of_accepted ha ra ((C54_language _).1 ⟨_, p1⟩))
    · exact k (alone_of_accepted hb rb ((C54_language _).1 ⟨_, p2⟩))
  | set o c hb cs hc hm h2 k =>
    obtain ⟨S', E', hs⟩ := set_denotes U (p := setFlag o) hc hm
    cases C55_unique hf hd (.set o c hb cs hc S' E' hs)
    cases hS; cases hE
    revert k
    generalize cs.any Chunk.opensStart = so at hs
    generalize cs.any Chunk.opensEnd = eo at hs
    intro k
    cases hs with
    | one => rcases k with k | k <;> cases k
    | closed => rcases k with k | k <;> cases k
    | upTo1 t h1 => rw [h1] at h2; exact absurd h2 (by simp)
    | onFrom1 t h1 => rw [h1] at h2; exact absurd h2 (by simp)
    | upTo => exact un nS rfl ⟨_, rfl, rfl⟩
    | onFrom => exact un nE rfl ⟨_, rfl, rfl⟩
    | both => exact un nS rfl ⟨_, rfl, rfl⟩

/-- C89: exactly when the labels of both ranges name them. -/
theorem C89_labels_partial {s : Str} {d : EDTFDate} (h : parseString s = .ok d) {S E : DateRange} (hS : d.start = some S) (hE : d.stop = some E) :
    Named S ∧ Named E ↔ ¬ Unnamed s := by
  have hf := dayCount_unixDay
  refine ⟨fun k hu => unnamed_not h hu hS hE k, fun k => ?_⟩
  obtain ⟨k1, k2⟩ := denotes_names hf ((C55_denotes hf s d).1 h) k hS hE
  exact ⟨(named_iff hf).2 k1, (named_iff hf).2 k2⟩

/- Beside C89: "2004-06-XX/2004-07-~03" has ends that are accepted alone.  The first
alone is the whole of June, and June is what the start range holds. -/
def labelA : Endpoint := ⟨⟨false, c! "2004", .day (c! "06") (c! "XX")⟩, .none, .none, .none⟩
def labelB : Endpoint := ⟨⟨false, c! "2004", .day (c! "07") (c! "03")⟩, .none, .none, .left '~'⟩
def labelC : Endpoint := ⟨⟨true, c! "2004", .month (c! "XX")⟩, .none, .none, .none⟩
def labelD : Endpoint := ⟨⟨false, c! "201X", .none⟩, .left '~', .none, .none⟩
example : labelA.alone ∧ labelB.alone ∧ ¬ labelC.alone ∧ ¬ labelD.alone := by decide
example : labelC.text = c! "-2004-XX" ∧ labelD.text = c! "~201X" := by decide
example : ∃ d, parseString (c! "-2004-XX/~201X") = .ok d := ⟨_, rfl⟩
example : (∃ e, parseString (c! "-2004-XX") = .err e) ∧ ∃ e, parseString (c! "~201X") = .err e := by
  constructor <;> exact ⟨_, rfl⟩
/- The labels of a season are its first and its last day. -/
example : ∃ d S E, parseString (c! "2001-24") = .ok d ∧ d.start = some S ∧ d.stop = some E ∧ S.edtf = c! "2001-12-01" ∧ E.edtf = c! "2002-02-28" ∧
    Named S ∧ Named E := by
  have hp : parseString (c! "2001-24") = .ok (monthsResult U (c! "2001-24") 1 (c! "Seasons") 2001 12 2002 2) := by decide +kernel
  have hd := Denotes.season (f := U) false 2001 (by decide) .winter 2001 rfl (by unfold SeasonYear; decide) (by decide)
  obtain ⟨k1, k2⟩ := months_named dayCount_unixDay (s := c! "2001-24") (k := c! "Seasons") (n := 1) (y1 := 2001) (y2 := 2002) (m1 := 12) (m2 := 2)
    (by decide) (by decide) (by decide) (by decide) (by decide) (by decide) rfl rfl
  exact ⟨_, _, _, hp, rfl, rfl, by decide, by decide, (named_iff dayCount_unixDay).2 k1, (named_iff dayCount_unixDay).2 k2⟩

/-- C89: each end of an interval is named by its label exactly when it is accepted
alone. -/
theorem C89_interval {a b : Endpoint} (ha : a.Readable) (hb : b.Readable) (ra : noRight a.qy a.qm a.qd) (rb : noRight b.qy b.qm b.qd) {d : EDTFDate}
    (h : parseString (a.text ++ '/' :: b.text) = .ok d) {S E : DateRange} (hS : d.start = some S) (hE : d.stop = some E) :
    S.edtf = a.text ∧ E.edtf = b.text ∧ (Named S ↔ Accepted a.text) ∧ (Named E ↔ Accepted b.text) := by
  have hf := dayCount_unixDay
  obtain ⟨R, hR⟩ := range_exists U ha
  obtain ⟨R', hR'⟩ := range_exists U hb
  cases C55_unique hf ((C55_denotes hf _ d).1 h) (.interval a b ha.1 hb.1 ra rb R R' hR hR')
  cases hS; cases hE
  have one : ∀ {e : Endpoint} {Q : DateRange}, e.Readable → noRight e.qy e.qm e.qd → RangeOf U e.text Q → (Named Q ↔ Accepted e.text) := by
    intro e Q he hr hQ
    constructor
    · rintro ⟨d, -, -, -, -, p, -⟩
      rw [range_label hQ] at p
      exact (C54_language _).1 ⟨d, p⟩
    · intro k
      rw [named_iff hf, range_label hQ]
      exact names_endpoint hf he hr (alone_of_accepted he hr k) hQ
  exact ⟨range_label hR, range_label hR', one ha ra hR, one hb rb hR'⟩

/-- C89 does not hold of every accepted string: here are one of each kind. -/
theorem C89_negation : ∀ s ∈ [c! "..", c! "1985-04-12T23:20:30Z", c! "-2004-XX/2004", c! "~201X/2020", c! "[..1985,1990]", c! "{1985,1990..}"],
    ∃ d S E, parseString s = .ok d ∧ d.start = some S ∧ d.stop = some E ∧ ¬ (Named S ∧ Named E) := by
  have rej : ∀ {r : DateRange}, (∃ e, parseString r.edtf = .err e) → ¬ Named r := by
    rintro r ⟨e, he⟩ ⟨d, -, -, -, -, p, -⟩
    rw [he] at p
    cases p
  have emp : ∀ {r : DateRange} {l : Date}, r.edtf = [] → r.lower = some l → l.unknown = false → ¬ Named r := by
    intro r l he hl k hn
    obtain ⟨l', -, hl', -, k', -⟩ := named_empty hn he
    rw [hl] at hl'
    cases hl'
    rw [k] at k'
    cases k'
  intro s hs
  simp only [List.mem_cons, List.not_mem_nil, or_false] at hs
  rcases hs with rfl | rfl | rfl | rfl | rfl | rfl
  · exact ⟨_, _, _, rfl, rfl, rfl, fun k => emp rfl rfl rfl k.1⟩
  · exact ⟨_, _, _, rfl, rfl, rfl, fun k => emp rfl rfl rfl k.1⟩
  · exact ⟨_, _, _, rfl, rfl, rfl, fun k => rej ⟨_, rfl⟩ k.1⟩
  · exact ⟨_, _, _, rfl, rfl, rfl, fun k => rej ⟨_, rfl⟩ k.1⟩
  · exact ⟨_, _, _, rfl, rfl, rfl, fun k => emp rfl rfl rfl k.1⟩
  · exact ⟨_, _, _, rfl, rfl, rfl, fun k => emp rfl rfl rfl k.2⟩

end EDTF
