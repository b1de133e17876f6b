/- C55: the exact result of every accepted string. -/
import Verif.PropsLang
import Verif.LemmasDen
namespace EDTF
open Spec

variable {f : Int → Nat → Nat → Int}

/-! ### The result of each form -/

theorem date_exact (hf : DayCount f) {x : Date0} (h : x.ok) : parseString x.text = .ok (x.result f x.text x.text 0 (c! "Date") 0 0) := by
  rw [parse_date0 hf h]
  obtain ⟨neg, n, t⟩ := x
  cases t with
  | none => rfl
  | month m => rfl
  | day m d => simp [Date0.result, Date0.first, Date0.last]

theorem month_exact (hf : DayCount f) {neg : Bool} {n m : Nat} (hn : n < 10000) (h1 : 1 ≤ m) (h2 : m ≤ 12)
    (hy : SeasonYear (if neg then -(n : Int) else n)) {t : Str} (ht : AfterMonth neg t) :
    parseString (yearStr neg n ++ '-' :: (pad2 m ++ t)) = .ok (monthsResult f (yearStr neg n ++ '-' :: (pad2 m ++ t)) 1 (c! "Seasons")
      (if neg then -(n : Int) else n) m (if neg then -(n : Int) else n) m) := by
  obtain ⟨k0, k1⟩ := month_levels hn h1 h2 ht
  have hp : PadYear (if neg then -(n : Int) else n) := ⟨hy, by split <;> omega⟩
  exact parse_prefix_ok hf hn (Or.inl ⟨h1, h2⟩) k0 k1 (numSpan_month h1 h2) hp hp h1 h2 h1 h2

theorem sigTail_ok {s s' : Str} {v : Int} {k : Nat} {r : EDTFDate} (h : sigTail s v k = .ok r) : sigTail s' v k = .ok { r with edtf := s' } := by
  unfold sigTail at h ⊢
  split at h
  · cases h
  · rename_i hk
    rw [if_neg hk]
    obtain ⟨str, h1, h⟩ := Res.bind_eq_ok.1 h
    obtain ⟨sp, h2, h⟩ := Res.bind_eq_ok.1 h
    injection h with h
    subst h
    rw [h1, Res.ok_bind, h2]
    rfl

theorem sig_exact (hf : DayCount f) {t : Str} {v : Int} (h : SigText t v) {ds : List Nat} (hd : Digits ds) {a b : Date0} (hk : SigYears v (value10 ds) a b) :
    parseString (t ++ 'S' :: ds.map dig) =
      .ok ⟨some (a.range f a.text 0 0 Prec.YEAR), some (b.range f b.text 0 0 Prec.YEAR), t ++ 'S' :: ds.map dig, 2, c! "Significant digits"⟩ := by
  have go : ∀ (neg : Bool) (n : Nat), n < 10000 → v = (if neg then -(n : Int) else n) → v ≠ 0 →
      parseString ((⟨neg, n, .none⟩ : Date0).text ++ 'S' :: ds.map dig) =
        .ok ⟨some (a.range f a.text 0 0 Prec.YEAR), some (b.range f b.text 0 0 Prec.YEAR), (⟨neg, n, .none⟩ : Date0).text ++ 'S' :: ds.map dig, 2,
          c! "Significant digits"⟩ →
      parseString (t ++ 'S' :: ds.map dig) =
        .ok ⟨some (a.range f a.text 0 0 Prec.YEAR), some (b.range f b.text 0 0 Prec.YEAR), t ++ 'S' :: ds.map dig, 2, c! "Significant digits"⟩ := by
    intro neg n hn hv h0 hp
    rw [date0_year, show yearStr neg n = signed neg (pad4 n) from rfl, (sigText_eq (.date neg n hn) (by rw [← hv]; exact h0) hd).2] at hp
    rw [(sigText_eq h h0 hd).2, hv]
    exact sigTail_ok hp
  generalize hv : v = v' at hk
  generalize hk' : value10 ds = k at hk
  cases hk with
  | pos n _ h1 h2 hk =>
    refine go false n (by omega) hv (by omega) ?_
    rw [(C24_actual_partial hf false h1 (by omega) hd.2 hd.1 (by omega)).1, hk']
    rfl
  | neg n _ h1 h2 hk =>
    refine go true n (by omega) hv (by omega) ?_
    rw [(C24_actual_partial hf true h1 (by omega) hd.2 hd.1 (by omega)).1, hk']
    rfl
  | sign n h1 h2 =>
    refine go true n (by omega) hv (by omega) ?_
    rw [C24_minus_partial hf h1 (by omega) hd.2 hd.1 hk']
    rfl

theorem setTime_at (hf : DayCount f) {y : Int} {m d hh mi ss : Nat} (V : Valid y m d) (hy : y.natAbs < 100000) (k1 : hh < 24) (k2 : mi < 60) (k3 : ss < 60) :
    Date.setTime {} (unixDay y m d * 86400 + secOf hh mi ss) = { dated f y m d hh mi ss 0 0 0 with ymd := none } := by
  unfold Date.setTime dated
  rw [formatRFC3339_eq hy V k1 k2 k3, dayCount_eq hf V]
  have : unixDay y m d * 86400 + secOf hh mi ss = 86400 * unixDay y m d + ((3600 * hh + 60 * mi + ss : Nat) : Int) := by
    unfold secOf; omega
  rw [this]

theorem time_exact (hf : DayCount f) {neg : Bool} {y m d hh mi ss : Nat} {z : Zone} (hy : y < 10000) (V : Valid y m d) (k1 : hh < 24) (k2 : mi < 60)
    (k3 : ss < 60) (hz : z.ok) {y' : Int} {m' d' hh' mi' ss' : Nat} (V' : Valid y' m' d') (k1' : hh' < 24) (k2' : mi' < 60) (k3' : ss' < 60)
    (e : 86400 * f y' m' d' + (3600 * hh' + 60 * mi' + ss') = 86400 * f y m d + (3600 * hh + 60 * mi + ss) - z.offset) :
    parseString (clockText neg y m d hh mi ss z) = .ok
      (instantResult (clockText neg y m d hh mi ss z) { dated f (if neg then -y' else y') m' d' hh' mi' ss' 0 0 0 with ymd := none }) := by
  have key := parse_clock (neg := neg) hy V.1 V.2.1 V.2.2.1 (Nat.le_trans V.2.2.2 (monthLen_pos _ _).2)
    (show hh < 100 by omega) (show mi < 100 by omega) (show ss < 100 by omega) (zone_shape hz)
  rw [if_pos ⟨V, ⟨k1, k2, k3⟩, hz⟩] at key
  obtain ⟨s1, s2⟩ := secOf_range k1' k2' k3'
  have el : localTime y m d hh mi ss z = unixDay y' m' d' * 86400 + secOf hh' mi' ss' := by
    rw [dayCount_eq hf V, dayCount_eq hf V'] at e
    unfold localTime secOf
    omega
  have ey : timeYear (localTime y m d hh mi ss z) = y' := by rw [el]; exact timeYear_eq V' s1 s2
  have hy' : y'.natAbs < 100000 := by
    rcases localTime_year V k1 k2 k3 hz with h | h | h <;> omega
  rw [key, el, timeToBCE_eq V' s1 s2]
  cases neg with
  | false => simp only [Bool.false_eq_true, if_false]; rw [setTime_at hf V' hy' k1' k2' k3']
  | true => simp only [if_true]; rw [setTime_at hf (valid_neg.2 V') (by omega) k1' k2' k3']

/-- Each record of the specification is the result of parsing. -/
theorem denotes_sound (hf : DayCount f) {s : Str} {d : EDTFDate} (h : Denotes f s d) : parseString s = .ok d := by
  cases h with
  | unknown => rfl
  | opened => rfl
  | date x h => exact date_exact hf h
  | time neg y m d hh mi ss z hy V k1 k2 k3 hz y' m' d' hh' mi' ss' V' k1' k2' k3' e => exact time_exact hf hy V k1 k2 k3 hz V' k1' k2' k3' e
  | interval a b ha hb ra rb R S hR hS => exact interval_ok hf ha hb ra rb hR hS
  | startless l hl x h => exact C17_start hf hl h
  | endless neg n h r hr => exact C17_end_year_partial hf hr ⟨h, trivial⟩ rfl
  | qualifiedYear neg n h q hq =>
    rw [C16_year_partial hf neg h (q_mem.1 hq)]
    rcases q_mem.1 hq with rfl | rfl | rfl <;> rfl
  | group e h hn hX hl he S E hs => exact group_ok hf h hn hX hl he hs
  | individual e h hn hX hr hl S E hs => exact individual_ok hf h hn hX hr hl hs
  | unspecified x h hn hX S E hs => exact unspecified_ok hf h hn hX hs
  | month neg n m hn h1 h2 y hv hy t ht =>
    subst hv
    exact month_exact hf hn h1 h2 hy ht
  | season neg n hn z y hv hy hz => exact (C18_numeric_partial hf neg hn z hv).1 hy hz
  | seasonName z w t1 t2 n hw h1 h2 hn hz => exact C18_text hf z hw h1 h2 hn (fun h => by have := hz h; omega)
  | letter neg n h => exact C22_four hf neg h
  | exponential yc ec hy he neg ms es hm hes b n h1 h2 hv => exact exp_parse hf (mem_Yy.1 hy) (mem_Ee.1 he) neg hm hes h1 h2 hv
  | significant t v h ds hd a b hk => exact sig_exact hf h hd hk
  | grouping n hn g hg =>
    obtain ⟨r, h, rfl, -⟩ := C19_months_partial hf hn g hg
    exact h
  | set o c hb cs hc S E hm => exact set_exact hf hb hc hm

/-! ### Every accepted string denotes a record -/

theorem time_denotes (hf : DayCount f) {neg : Bool} {y m d hh mi ss : Nat} {z : Zone} (hy : y < 10000) (V : Valid y m d) (k1 : hh < 24) (k2 : mi < 60)
    (k3 : ss < 60) (hz : z.ok) : ∃ r, Denotes f (clockText neg y m d hh mi ss z) r := by
  obtain ⟨y', m', d', V', e⟩ := exists_date (localTime y m d hh mi ss z / 86400)
  obtain ⟨hh', mi', ss', k1', k2', k3', e'⟩ := exists_hms (r := localTime y m d hh mi ss z % 86400) (by omega) (by omega)
  refine ⟨_, .time neg y m d hh mi ss z hy V k1 k2 k3 hz y' m' d' hh' mi' ss' V' k1' k2' k3' ?_⟩
  rw [dayCount_eq hf V, dayCount_eq hf V']
  have : localTime y m d hh mi ss z = unixDay y' m' d' * 86400 + secOf hh' mi' ss' := by omega
  unfold localTime secOf at this
  omega

theorem text_sub {e : Endpoint} {c : Char} (h : c ∈ e.date.text) : c ∈ e.text := by
  obtain ⟨⟨neg, y, t⟩, qy, qm, qd⟩ := e
  have one : ∀ (q : Deco) {w : Str}, c ∈ w → c ∈ q.text w := by
    intro q w hw
    cases q <;> simp [Deco.text, hw]
  unfold XDate.text at h
  unfold Endpoint.text
  simp only [List.mem_append] at h ⊢
  rcases h with h | h
  · refine Or.inl (one qy ?_)
    cases neg <;> simpa using h
  · refine Or.inr ?_
    cases t with
    | none => exact h
    | month m =>
      rcases List.mem_cons.1 h with h | h
      · rw [h]; exact List.mem_cons_self
      · exact List.mem_cons_of_mem _ (one qm h)
    | day m d =>
      simp only [List.cons_append, List.mem_cons, List.mem_append] at h ⊢
      rcases h with h | h | h | h
      · exact Or.inl h
      · exact Or.inr (Or.inl (one qm h))
      · exact Or.inr (Or.inr (Or.inl h))
      · exact Or.inr (Or.inr (Or.inr (one qd h)))

theorem loose_denotes (f : Int → Nat → Nat → Int) {x : XDate} (h : x.ok) (hr : x.Readable) (hn : x.neg = false) (hX : 'X' ∈ x.text)
    (h1 : 'X' ∉ x.year) (h2 : 'X' ∉ x.mx) : ∃ r, Denotes f x.text r := by
  obtain ⟨neg, y, t⟩ := x
  simp only at hn h1
  subst hn
  obtain ⟨y1, y2, m1, m2, d1, d2, hy, hm, hd, -, -⟩ := hr
  simp only at hy
  cases hy with
  | unspecified a ha hb hc => simp at h1
  | digits _ n hn =>
    cases t with
    | none => simp [XDate.text] at hX; exact absurd hX h1
    | month m =>
      exfalso
      simp [XDate.text, XDate.mx] at hX h2
      exact hX.elim h1 h2
    | day m d =>
      simp only [XDate.mx] at hm h2
      simp only [XDate.dx] at hd
      have hX' : 'X' ∈ d := by
        simp [XDate.text] at hX
        exact (hX.resolve_left h1).resolve_left h2
      clear hX
      cases hm with
      | absent => have := h.2.2.1; simp at this
      | any => simp at h2
      | zero => simp at h2
      | one => simp at h2
      | digits m a1 a2 =>
        have go : ∀ a b : Char, LooseDay a b → ∃ r, Denotes f (⟨false, pad4 n, .day (pad2 m1) [a, b]⟩ : XDate).text r := by
          intro a b hab
          have := Denotes.month (f := f) false n m1 hn a1 a2 n rfl (Or.inl (by omega)) ['-', a, b] (.loose a b hab)
          rw [show signed false (pad4 n) ++ '-' :: (pad2 m1 ++ ['-', a, b]) = (⟨false, pad4 n, .day (pad2 m1) [a, b]⟩ : XDate).text by
            simp [XDate.text, signed]] at this
          exact ⟨_, this⟩
        cases hd with
        | absent => simp at hX'
        | zero => simp at hX'
        | any => exact go _ _ (by decide)
        | tens1 => exact go _ _ (by decide)
        | tens2 => exact go _ _ (by decide)
        | tens3 => exact go _ _ (by decide)
        | digits d b1 b2 =>
          exfalso
          exact (by decide : ∀ d < 32, 'X' ∉ pad2 d) d1 (by omega) hX'

theorem single_denotes (f : Int → Nat → Nat → Int) {e : Endpoint} (h : e.Readable) (hn : e.date.neg = false)
    (hq : noLeft e.qy e.qm e.qd ∨ noRight e.qy e.qm e.qd) (hx : 'X' ∈ e.text → e.qy = .none ∧ e.qm = .none ∧ e.qd = .none) :
    ∃ r, Denotes f e.text r := by
  obtain ⟨S, E, hs⟩ := span_exists f h
  by_cases hX : 'X' ∈ e.text
  · obtain ⟨x, qy, qm, qd⟩ := e
    obtain ⟨q1, q2, q3⟩ := hx hX
    simp only at q1 q2 q3
    subst q1 q2 q3
    rw [endpoint_plain] at hs hX ⊢
    by_cases hX' : 'X' ∈ x.year ∨ 'X' ∈ x.mx
    · exact ⟨_, .unspecified x h.1.1 hn hX' S E hs⟩
    · exact loose_denotes f h.1.1 h.2 hn hX (fun k => hX' (Or.inl k)) (fun k => hX' (Or.inr k))
  · by_cases hl : noLeft e.qy e.qm e.qd
    · by_cases he : e.early ∨ e.date.dx = c! "00"
      · exact ⟨_, .group e h.1 hn hX hl he S E hs⟩
      · obtain ⟨⟨neg, n, t⟩, hz, ez⟩ := read_digits h.1.1 (fun k => hX (text_sub k)) (fun k => he (Or.inr k)) h.2
        have he : ¬ e.early := fun k => he (Or.inl k)
        obtain ⟨x, qy, qm, qd⟩ := e
        simp only at ez
        subst ez
        have hn : neg = false := hn
        subst hn
        have hsh := h.1
        simp only [Endpoint.shape] at hsh
        obtain ⟨-, oy, om, od, hsh⟩ := hsh
        have l : ∀ q ∈ [qy, qm, qd], q.isLeft (fun _ => true) = false := hl
        have pick : ∀ q ∈ [qy, qm, qd], q.ok = true → q = .none ∨ ∃ c ∈ c! "?~%", q = .right c := by
          intro q hq ho
          cases q with
          | none => exact Or.inl rfl
          | left c => cases l _ hq
          | right c => exact Or.inr ⟨c, by simpa [Deco.ok, or_assoc] using ho, rfl⟩
        have asDate : qy = .none → qm = .none → qd = .none →
            ∃ r, Denotes f (⟨(dateE ⟨false, n, t⟩).date, qy, qm, qd⟩ : Endpoint).text r := by
          rintro rfl rfl rfl
          have := Denotes.date (f := f) ⟨false, n, t⟩ hz
          rw [← dateE_text] at this
          exact ⟨_, this⟩
        cases t with
        | none =>
          obtain ⟨rfl, rfl⟩ := hsh
          rcases pick qy (by simp) oy with rfl | ⟨c, hc, rfl⟩
          · exact asDate rfl rfl rfl
          · have := Denotes.qualifiedYear (f := f) false n hz.1 c hc
            rw [date0_year] at this
            exact ⟨_, this⟩
        | month m =>
          have hqd : qd = .none := hsh
          subst hqd
          have hqy : qy = .none := Classical.byContradiction fun k => he k
          subst hqy
          rcases pick qm (by simp) om with rfl | ⟨c, hc, rfl⟩
          · exact asDate rfl rfl rfl
          · have := Denotes.month (f := f) false n m hz.1 hz.2.1 hz.2.2 n rfl (Or.inl (by omega)) [c] (.qualifier false c hc)
            exact ⟨_, by simpa [Endpoint.text, dateE, Deco.text, signed] using this⟩
        | day m d =>
          have hqy : qy = .none := Classical.byContradiction fun k => he (Or.inl k)
          have hqm : qm = .none := Classical.byContradiction fun k => he (Or.inr k)
          subst hqy hqm
          rcases pick qd (by simp) od with rfl | ⟨c, hc, rfl⟩
          · exact asDate rfl rfl rfl
          · have V : Valid _ m d := hz.2
            have hd := Nat.le_trans V.2.2.2 (monthLen_pos _ _).2
            have := Denotes.month (f := f) false n m hz.1 V.1 V.2.1 n rfl (Or.inl (by omega)) ('-' :: (pad2 d ++ [c]))
              (.dayQualifier false d V.2.2.1 hd c hc)
            exact ⟨_, by simpa [Endpoint.text, dateE, Deco.text, signed] using this⟩
    · exact ⟨_, .individual e h.1 hn hX (hq.resolve_left hl) hl S E hs⟩

theorem sig_denotes {v : Int} {k : Nat} (h : SigFits v k) : ∃ a b, SigYears v k a b := by
  rcases h with ⟨h1, h2, hk⟩ | ⟨h1, h2, rfl⟩
  · by_cases hv : 0 ≤ v
    · obtain ⟨n, rfl⟩ := Int.eq_ofNat_of_zero_le hv
      exact ⟨_, _, .pos n k (by omega) (by omega) hk⟩
    · obtain ⟨n, rfl⟩ : ∃ n : Nat, v = -(n : Int) := ⟨v.natAbs, by omega⟩
      exact ⟨_, _, .neg n k (by omega) (by omega) hk⟩
  · obtain ⟨n, rfl⟩ : ∃ n : Nat, v = -(n : Int) := ⟨v.natAbs, by omega⟩
    exact ⟨_, _, .sign n (by omega) (by omega)⟩

theorem both_open {cs : List Chunk} (hc : ChunksOk cs) (h1 : cs.any Chunk.opensStart = true) (h2 : cs.any Chunk.opensEnd = true) :
    2 ≤ (cs.flatMap Chunk.members).length := by
  match cs with
  | [] => simp at h1
  | [c] => cases c <;> simp [Chunk.opensStart, Chunk.opensEnd] at h1 h2
  | a :: b :: cs => 
    have : ∀ c : Chunk, 1 ≤ c.members.length := fun c => by cases c <;> simp [Chunk.members]
    have ha := this a
    have hb := this b
    simp only [List.flatMap_cons, List.length_append]
    omega

theorem set_denotes (f : Int → Nat → Nat → Int) {p : Prec} {cs : List Chunk} (hc : ChunksOk cs) (hm : MembersOk (cs.flatMap Chunk.members)) :
    ∃ S E, SetSpan f p (cs.flatMap Chunk.members) (cs.any Chunk.opensStart) (cs.any Chunk.opensEnd) S E := by
  obtain ⟨a, b, ha, hb, hab, rb, ra⟩ := hm
  have hx : Extremes (cs.flatMap Chunk.members) a b := ⟨ha, hb, hab⟩
  obtain ⟨S, hS⟩ := reads_range f rb
  obtain ⟨R, hR⟩ : ∃ R, RangeOf f a R := by
    rcases ra with rfl | ra
    · exact ⟨_, .absent⟩
    · exact reads_range f ra
  have hboth := both_open hc
  generalize cs.flatMap Chunk.members = ms at *
  generalize cs.any Chunk.opensStart = so at *
  generalize cs.any Chunk.opensEnd = eo at *
  have h0 : ms ≠ [] := fun h => by rw [h] at ha; cases ha
  have one : ms.length = 1 → ms = [b] := by
    intro h
    obtain ⟨t, rfl⟩ := List.length_eq_one_iff.1 h
    rw [List.mem_singleton.1 hb]
  have len := List.length_pos_iff.2 h0
  match so, eo with
  | false, false =>
    by_cases e : a = b
    · subst e
      obtain ⟨S, E, hs⟩ := reads_span f rb
      exact ⟨_, _, .one a hx S E hs⟩
    · exact ⟨_, _, .closed a b hx e R S hR hS⟩
  | true, false =>
    by_cases l : ms.length = 1
    · exact ⟨_, _, .upTo1 b (one l) S hS⟩
    · exact ⟨_, _, .upTo a b hx (by omega) R S hR hS⟩
  | false, true =>
    by_cases l : ms.length = 1
    · exact ⟨_, _, .onFrom1 b (one l) S hS⟩
    · exact ⟨_, _, .onFrom a b hx (by omega) R S hR hS⟩
  | true, true => exact ⟨_, _, .both a b hx (hboth rfl rfl) R S hR hS⟩

theorem accepted_denotes (hf : DayCount f) {s : Str} (h : Accepted s) : ∃ d, Denotes f s d := by
  have side : ∀ {t : Str}, t = [] ∨ t = c! ".." → ∃ l : Side, (l = .opened ∨ l = .unknown) ∧ t = l.text := by
    rintro t (rfl | rfl)
    · exact ⟨.unknown, Or.inr rfl, rfl⟩
    · exact ⟨.opened, Or.inl rfl, rfl⟩
  cases h with
  | unknown => exact ⟨_, .unknown⟩
  | opened => exact ⟨_, .opened⟩
  | date x h => exact ⟨_, .date x h⟩
  | time neg y m d hh mi ss z hy V k1 k2 k3 hz => exact time_denotes hf hy V k1 k2 k3 hz
  | interval a b ha hb ra rb =>
    obtain ⟨R, hR⟩ := range_exists f ha
    obtain ⟨S, hS⟩ := range_exists f hb
    exact ⟨_, .interval a b ha.1 hb.1 ra rb R S hR hS⟩
  | startless t ht x h =>
    obtain ⟨l, hl, rfl⟩ := side ht
    exact ⟨_, .startless l hl x h⟩
  | endless neg n h t ht =>
    obtain ⟨r, hr, rfl⟩ := side ht
    have := Denotes.endless (f := f) neg n h r hr
    rw [date0_year] at this
    exact ⟨_, this⟩
  | qualifiedYear neg n h q hq =>
    have := Denotes.qualifiedYear (f := f) neg n h q hq
    rw [date0_year] at this
    exact ⟨_, this⟩
  | single e h hn hq hx => exact single_denotes f h hn hq hx
  | month neg n m hn h1 h2 hy t ht => exact ⟨_, .month neg n m hn h1 h2 _ rfl hy t ht⟩
  | season neg n hn z hy hz => exact ⟨_, .season neg n hn z _ rfl hy hz⟩
  | seasonName z w t1 t2 n hw h1 h2 hn hz => exact ⟨_, .seasonName z w t1 t2 n hw h1 h2 hn hz⟩
  | letter neg n h =>
    have := Denotes.letter (f := f) neg n h
    rw [date0_year] at this
    exact ⟨_, this⟩
  | exponential yc ec hy he neg ms es hm hes v hv h =>
    have e : v = if decide (v < 0) then -(v.natAbs : Int) else v.natAbs := by
      by_cases k : v < 0
      · rw [if_pos (by simpa using k)]; omega
      · rw [if_neg (by simpa using k)]; omega
    have := hv.2.1
    have := hv.2.2.1
    exact ⟨_, .exponential yc ec hy he neg ms es hm hes (decide (v < 0)) v.natAbs h (by omega) (e ▸ hv)⟩
  | significant t v h ds hd hk =>
    obtain ⟨a, b, hab⟩ := sig_denotes hk
    exact ⟨_, .significant t v h ds hd a b hab⟩
  | grouping n hn g hg => exact ⟨_, .grouping n hn g hg⟩
  | set o c hb cs hc hm =>
    obtain ⟨S, E, hs⟩ := set_denotes f (p := setFlag o) hc hm
    exact ⟨_, .set o c hb cs hc S E hs⟩

/-! ### C55 -/

/-- C55: `ParseString` returns exactly the record of the specification, for every
string: it succeeds with `d` if and only if `s` denotes `d`. -/
theorem C55_denotes (hf : DayCount f) (s : Str) (d : EDTFDate) : parseString s = .ok d ↔ Denotes f s d := by
  refine ⟨fun h => ?_, denotes_sound hf⟩
  obtain ⟨d', hd⟩ := accepted_denotes hf ((C54_language s).1 ⟨d, h⟩)
  have := denotes_sound hf hd
  rw [h] at this
  injection this with this
  rw [this]
  exact hd

/- Beside C55: records found with the specification alone, and so returned by the
parser.  "156X-12-2X" runs from 1560-12-20 to 1569-12-29 and "-1044-03-15?" is the
whole of March. -/
example : parseString (c! "156X-12-2X") = .ok
    ⟨some ⟨c! "156X-12-2X", some (dayStart U 1560 12 20 0 0 Prec.DECADE), some (dayEnd U 1560 12 20 0 0 Prec.DECADE)⟩,
      some ⟨c! "156X-12-2X", some (dayStart U 1569 12 29 0 0 Prec.DECADE), some (dayEnd U 1569 12 29 0 0 Prec.DECADE)⟩,
      c! "156X-12-2X", 1, c! "Unspecified digit(s) from the right"⟩ := by
  let x : XDate := ⟨false, c! "156X", .day (c! "12") (c! "2X")⟩
  have hx : x.ok := by
    refine ⟨rfl, ?_, rfl, ?_, rfl, ?_⟩ <;> intro c hc <;> rw [xdigit_iff] <;> revert c <;> decide
  have hr : x.Runs 1560 12 20 1569 12 29 :=
    ⟨.unspecified 1 (by decide) (.digit 5 (by decide)) (.digit 6 (by decide)), .digits 12 (by decide) (by decide), .tens2,
      by unfold Valid; decide, by unfold Valid; decide⟩
  have hs := SpanOf.date (f := U) ⟨x, .none, .none, .none⟩ ⟨hx, rfl, rfl, rfl, trivial⟩ 1560 12 20 1569 12 29 hr
  rw [if_neg (by decide), if_neg (by decide)] at hs
  have hu : x.unit = Prec.DECADE := by decide
  simp only [Endpoint.dawn, Endpoint.dusk, hu] at hs
  exact (C55_denotes dayCount_unixDay _ _).2 (.unspecified x hx rfl (Or.inl (by decide)) _ _ hs)
example : parseString (c! "-1044-03-15?") = .ok (monthsResult U (c! "-1044-03-15?") 1 (c! "Seasons") (-1044) 3 (-1044) 3) :=
  (C55_denotes dayCount_unixDay _ _).2 (.month true 1044 3 (by decide) (by decide) (by decide) (-1044) rfl (by unfold SeasonYear; decide) _
    (.dayQualifier true 15 (by decide) (by decide) '?' (by decide)))
example : ¬ ∃ d, Denotes U (c! "2004-02-30") d := by
  rintro ⟨d, h⟩
  have := (C55_denotes dayCount_unixDay _ _).2 h
  cases this

/-- A string denotes at most one record (the specification is not ambiguous). -/
theorem C55_unique (hf : DayCount f) {s : Str} {d d' : EDTFDate} (h : Denotes f s d) (h' : Denotes f s d') : d = d' := by
  have := (C55_denotes hf s d').2 h'
  rw [(C55_denotes hf s d).2 h] at this
  injection this

example : ∃ d, Denotes U (c! "1985-04/..") d := ⟨_, (C55_denotes dayCount_unixDay _ _).1 rfl⟩

/-- A string denotes a record just when it is in the accepted language. -/
theorem C55_accepted (hf : DayCount f) (s : Str) : (∃ d, Denotes f s d) ↔ Accepted s :=
  ⟨fun ⟨d, h⟩ => (C54_language s).1 ⟨d, (C55_denotes hf s d).2 h⟩, accepted_denotes hf⟩

example : Accepted (c! "{1667,1668,1670..1672}") := (C55_accepted dayCount_unixDay _).1 ⟨_, (C55_denotes dayCount_unixDay _ _).1 rfl⟩

/-- The result and its text: every record denoted by `s` carries `s`. -/
theorem C55_text {s : Str} {d : EDTFDate} (h : Denotes f s d) : d.edtf = s := by
  cases h <;> rfl

example : ∃ d, Denotes U (c! "Spring, 2001") d ∧ d.edtf = c! "Spring, 2001" := ⟨_, (C55_denotes dayCount_unixDay _ _).1 rfl, rfl⟩

end EDTF
