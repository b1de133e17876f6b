/- For C87: the expressions of the standard other than exponents, significant digits, sets and unspecified digits. -/
import Verif.SpecStandard
import Verif.PropsExact
import Verif.PropsFail
import Verif.PropsDenote
namespace EDTF
open Spec
variable {f : Int → Nat → Nat → Int}

/-- What is to be shown of an expression: it is taken and honoured or not, or it is not taken. -/
def Verdict (f : Int → Nat → Nat → Int) (t : Term) : Prop :=
  (∃ d, parseString t.text = .ok d ∧ t.Taken ∧ (t.Honoured f d ↔ t.Supported)) ∨ ((∀ d, parseString t.text ≠ .ok d) ∧ ¬ t.Taken ∧ ¬ t.Supported)

/-! ### Limits -/

theorem honours_mk {r : EDTFDate} {S E : DateRange} {lo up : Date} {F L : Limit} (h1 : r.start = some S) (h2 : r.stop = some E)
    (h3 : S.lower = some lo) (h4 : E.upper = some up) : Honours r F L ↔ F.Is lo ∧ L.Is up := by
  constructor
  · rintro ⟨S', E', lo', up', k1, k2, k3, k4, k⟩
    rw [h1] at k1; injection k1 with k1; subst k1
    rw [h2] at k2; injection k2 with k2; subst k2
    rw [h3] at k3; injection k3 with k3; subst k3
    rw [h4] at k4; injection k4 with k4; subst k4
    exact k
  · exact fun k => ⟨S, E, lo, up, h1, h2, h3, h4, k⟩

theorem is_dawn {t : Int} {u a i u' a' p : Prec} {y : Int} {m d : Nat} :
    (Limit.second t u a i).Is (dayStart f y m d u' a' p) ↔ t = 86400 * f y m d ∧ u = u' ∧ a = a' ∧ i = 0 := by
  simp only [Limit.Is, dayStart, dated, Option.some.injEq, true_and]
  constructor
  · rintro ⟨h1, h2, h3, h4⟩
    exact ⟨by omega, h2.symm, h3.symm, h4.symm⟩
  · rintro ⟨h1, h2, h3, h4⟩
    exact ⟨by omega, h2.symm, h3.symm, h4.symm⟩

theorem is_dusk {t : Int} {u a i u' a' p : Prec} {y : Int} {m d : Nat} :
    (Limit.second t u a i).Is (dayEnd f y m d u' a' p) ↔ t = 86400 * f y m d + 86399 ∧ u = u' ∧ a = a' ∧ i = 0 := by
  simp only [Limit.Is, dayEnd, dated, Option.some.injEq, true_and]
  constructor
  · rintro ⟨h1, h2, h3, h4⟩
    exact ⟨by omega, h2.symm, h3.symm, h4.symm⟩
  · rintro ⟨h1, h2, h3, h4⟩
    exact ⟨by omega, h2.symm, h3.symm, h4.symm⟩

/-- The limits of the record of one date. -/
theorem honours_result {x : Date0} {e s : Str} {l : Int} {ft : Str} {u a : Prec} {F L : Limit} :
    Honours (x.result f e s l ft u a) F L ↔
      F.Is (dayStart f x.value x.first.1 x.first.2 u a Prec.YEAR) ∧ L.Is (dayEnd f x.value x.last.1 x.last.2 u a Prec.YEAR) :=
  honours_mk rfl rfl rfl rfl

theorem is_first {x : Date0} {t : Int} {u a i u' a' p : Prec} :
    (Limit.second t u a i).Is (dayStart f x.value x.first.1 x.first.2 u' a' p) ↔ t = firstSecond f x ∧ u = u' ∧ a = a' ∧ i = 0 := is_dawn

theorem is_last {x : Date0} {t : Int} {u a i u' a' p : Prec} :
    (Limit.second t u a i).Is (dayEnd f x.value x.last.1 x.last.2 u' a' p) ↔ t = lastSecond f x ∧ u = u' ∧ a = a' ∧ i = 0 := is_dusk

theorem honours_date {x : Date0} {e s : Str} {l : Int} {ft : Str} {u a u' a' : Prec} :
    Honours (x.result f e s l ft u a) (.second (firstSecond f x) u' a' 0) (.second (lastSecond f x) u' a' 0) ↔ u' = u ∧ a' = a := by
  rw [honours_result, is_first, is_last]
  constructor
  · exact fun h => ⟨h.1.2.1, h.1.2.2.1⟩
  · exact fun h => ⟨⟨rfl, h.1, h.2, rfl⟩, ⟨rfl, h.1, h.2, rfl⟩⟩

/-! ### Level 0 -/

theorem verdict_date (hf : DayCount f) {x : Date0} (h : (Term.date x).ok) : Verdict f (.date x) := by
  refine Or.inl ⟨_, (C55_denotes hf _ _).2 (.date x h.1), trivial, ?_⟩
  simp only [Term.Honoured, Term.Supported, iff_true]
  exact honours_date.2 ⟨rfl, rfl⟩

theorem verdict_time (hf : DayCount f) {y m d hh mi ss : Nat} {z : Zone} (h : (Term.time y m d hh mi ss z).ok) : Verdict f (.time y m d hh mi ss z) := by
  obtain ⟨h1, h2, h3, h4, h5, h6⟩ := h
  have hz : z.ok := by
    cases z with
    | none => trivial
    | utc => trivial
    | hours b a => simp only at h6; show a ≤ 24; omega
    | full b a c => simp only at h6; exact ⟨by omega, by omega⟩
  obtain ⟨y', m', d', hh', mi', ss', r, hp, hr, V', k1, k2, k3, e, -, -⟩ := C06_instant hf h1 h2 h3 h4 h5 hz
  refine Or.inl ⟨r, hp, trivial, ?_⟩
  simp only [Term.Honoured, Term.Supported, iff_true]
  rw [hr, honours_mk rfl rfl rfl rfl]
  simp only [Limit.Is, dated, Option.some.injEq, true_and]
  exact ⟨⟨by omega, trivial⟩, ⟨by omega, trivial⟩⟩

theorem pair_honoured {r : EDTFDate} {x y : Date0} {e e' : Str} {p p' : Prec} (h1 : r.start = some (x.range f e 0 0 p)) (h2 : r.stop = some (y.range f e' 0 0 p')) :
    Honours r (.second (firstSecond f x) 0 0 0) (.second (lastSecond f y) 0 0 0) := by
  rw [honours_mk h1 h2 rfl rfl, is_first, is_last]
  exact ⟨⟨rfl, rfl, rfl, rfl⟩, ⟨rfl, rfl, rfl, rfl⟩⟩

theorem verdict_interval (hf : DayCount f) {a b : Date0} (h : (Term.interval a b).ok) : Verdict f (.interval a b) := by
  refine Or.inl ⟨_, C08_interval hf h.1 h.2.2.1, trivial, ?_⟩
  simp only [Term.Honoured, Term.Supported, iff_true]
  exact pair_honoured rfl rfl

/-! ### Level 1 -/

theorem verdict_letter {neg : Bool} {ds : List Nat} (h : (Term.letter neg ds).ok) : Verdict f (.letter neg ds) := by
  refine Or.inr ⟨?_, id, id⟩
  intro d hd
  have := (C62_error _ _).2 (.letterLong neg ds h.1.1 h.2)
  simp only [Term.text] at hd
  rw [this] at hd; cases hd

theorem verdict_season (hf : DayCount f) {n : Nat} {z : Season} (h : (Term.season n z).ok) : Verdict f (.season n z) := by
  have h : n < 10000 := h
  obtain ⟨k1, k2⟩ := C18_numeric_partial hf false h z rfl
  by_cases hz : z = .winter → n ≠ 9999
  · refine Or.inl ⟨_, k1 (Or.inl (by simp)) ?_, hz, ?_⟩
    · intro w
      have := hz w
      simp only [Bool.false_eq_true, if_false]
      omega
    · simp only [Term.Honoured, Term.Supported, true_iff]
      exact hz
  · obtain ⟨e, he⟩ := k2 (Or.inr (by
      by_cases w : z = .winter
      · refine ⟨w, Or.inl ?_⟩
        by_cases hn : n = 9999
        · simp [hn]
        · exact absurd (fun _ => hn) hz
      · exact absurd (fun h => absurd h w) hz))
    refine Or.inr ⟨fun d hd => ?_, hz, hz⟩
    have hd : parseString (pad4 n ++ '-' :: pad2 z.code) = .ok d := hd
    simp only [Bool.false_eq_true, if_false] at he
    rw [he] at hd; cases hd

theorem verdict_negative (hf : DayCount f) {n : Nat} (h : (Term.negative n).ok) : Verdict f (.negative n) := by
  have h : 1 ≤ n ∧ n < 10000 := h
  refine Or.inl ⟨_, (C55_denotes hf _ _).2 (?_ : Denotes f _ ((⟨true, n, .none⟩ : Date0).result f (⟨true, n, .none⟩ : Date0).text
    (⟨true, n, .none⟩ : Date0).text 0 (c! "Date") 0 0)), trivial, ?_⟩
  · have := Denotes.date (f := f) ⟨true, n, .none⟩ ⟨h.2, trivial⟩
    rwa [show (Term.negative n).text = (⟨true, n, .none⟩ : Date0).text from by simp [Term.text, date0_text, yearStr, sgn]]
  · simp only [Term.Honoured, Term.Supported, iff_true]
    exact honours_date.2 ⟨rfl, rfl⟩

theorem prec_ne : ∀ x : Date0, x.components ≠ 0 := by
  intro x
  unfold Date0.components
  split <;> decide

theorem q_cases {q : Char} (h : q ∈ c! "?~%") : q = '?' ∨ q = '~' ∨ q = '%' := by simpa using h

theorem says_some {q : Char} (h : q ∈ c! "?~%") : saysUncertain q = true ∨ saysApproximate q = true := by
  rcases q_cases h with rfl | rfl | rfl <;> decide

/-- A qualified month or day: the record is that of the month, without marks. -/
theorem qualified_wrong {x : Date0} {q : Char} (hq : q ∈ c! "?~%") {s : Str} {l : Int} {ft : Str} {y1 y2 : Int} {m1 m2 : Nat} {L : Limit} :
    ¬ Honours (monthsResult f s l ft y1 m1 y2 m2) (.second (firstSecond f x) (x.whole saysUncertain (some q)) (x.whole saysApproximate (some q)) 0) L := by
  rw [honours_mk rfl rfl rfl rfl]
  rintro ⟨h, -⟩
  have h := (is_dawn (f := f)).1 h
  simp only [Date0.whole, Option.any_some] at h
  rcases says_some hq with k | k <;> simp only [k, if_true] at h
  · exact prec_ne x h.2.1
  · exact prec_ne x h.2.2.1

theorem verdict_qualified (hf : DayCount f) {x : Date0} {q : Char} (h : (Term.qualified x q).ok) : Verdict f (.qualified x q) := by
  obtain ⟨hx, hn, hq⟩ := h
  have hq' := q_cases hq
  by_cases ht : x.tail = .none
  · obtain ⟨neg, n, t⟩ := x
    simp only at hn ht
    subst hn ht
    refine Or.inl ⟨_, C16_year_partial hf false hx.1 hq', trivial, ?_⟩
    simp only [Term.Honoured, Term.Supported, iff_true]
    refine honours_date.2 ⟨?_, ?_⟩ <;> rcases hq' with rfl | rfl | rfl <;> rfl
  · have hv : 0 ≤ x.value := by rw [nonneg_value hn]; omega
    refine Or.inl ⟨_, (C16_month_or_day_partial hf hx ht hq').1 (Or.inl hv), trivial, ?_⟩
    simp only [Term.Honoured, Term.Supported]
    exact ⟨fun h => absurd h (qualified_wrong hq), fun h => absurd h ht⟩

/-! ### Groups of months -/

theorem verdict_grouping (hf : DayCount f) {n : Nat} {g : Grouping} (h : (Term.grouping n g).ok) : Verdict f (.grouping n g) := by
  have h : n < 10000 := h
  by_cases hg : g.crosses = true → 999 ≤ n ∧ n ≤ 9998
  · obtain ⟨r, hp, hr, -, -⟩ := C19_months_partial hf h g hg
    refine Or.inl ⟨r, hp, hg, ?_⟩
    have key : g.crosses = false → Honours r (.second (86400 * f n g.firstMonth 1) 0 0 0)
        (.second (86400 * f n g.lastMonth (monthLen n g.lastMonth) + 86399) 0 0 0) := by
      intro hc
      rw [hr, honours_mk rfl rfl rfl rfl]
      rw [is_dawn, is_dusk]
      have e1 : (dayOf n g.firstMonth 1).value = (n : Int) := by
        have : ¬ ((n : Int) < 0) := by omega
        simp [dayOf, Date0.value, this]
      have e2 : g.lastDate n = ⟨false, n, .day g.lastMonth (monthLen n g.lastMonth)⟩ := by
        unfold Grouping.lastDate; rw [hc]; rfl
      rw [e1, e2]
      exact ⟨⟨rfl, rfl, rfl, rfl⟩, ⟨rfl, rfl, rfl, rfl⟩⟩
    cases g with
    | north z => exact ⟨fun _ => hg, fun _ => trivial⟩
    | south z => exact ⟨fun _ => hg, fun _ => trivial⟩
    | quarter k => exact ⟨fun _ => hg, fun _ => key rfl⟩
    | quadrimester k => exact ⟨fun _ => hg, fun _ => key rfl⟩
    | semester k => exact ⟨fun _ => hg, fun _ => key rfl⟩
  · have hc : g.crosses = true := by
      cases hc : g.crosses with
      | true => rfl
      | false => exact absurd (fun k => by rw [hc] at k; cases k) hg
    obtain ⟨e, he, -⟩ := C19_crossing_partial h g hc (by
      have := fun k => hg (fun _ => k)
      omega)
    refine Or.inr ⟨fun d hd => ?_, hg, hg⟩
    have hd : parseString (pad4 n ++ '-' :: pad2 g.code) = .ok d := hd
    rw [he] at hd; cases hd

/-! ### Qualifiers on components -/

theorem noLeft_right (a b c : Option Char) : noLeft (toRight a) (toRight b) (toRight c) := by
  cases a <;> cases b <;> cases c <;> simp [noLeft, toRight, Deco.isLeft]

theorem noRight_left (a b c : Option Char) : noRight (toLeft a) (toLeft b) (toLeft c) := by
  cases a <;> cases b <;> cases c <;> simp [noRight, toLeft, Deco.isRight]

theorem toRight_none {a : Option Char} : toRight a = .none ↔ a = none := by cases a <;> simp [toRight]
theorem toLeft_none {a : Option Char} : toLeft a = .none ↔ a = none := by cases a <;> simp [toLeft]

theorem not_noLeft {a b c : Option Char} (h : (a, b, c) ≠ (none, none, none)) : ¬ noLeft (toLeft a) (toLeft b) (toLeft c) := by
  intro k
  apply h
  cases a <;> cases b <;> cases c <;> simp [noLeft, toLeft, Deco.isLeft] at k ⊢

theorem right_mem {q : Char} (h : (Deco.right q).ok = true) : q ∈ c! "?~%" := by
  simp only [Deco.ok, Bool.or_eq_true, beq_iff_eq] at h
  simpa [or_assoc] using h

theorem verdict_individual (hf : DayCount f) {x : Date0} {qy qm qd : Option Char} (h : (Term.individual x qy qm qd).ok) : Verdict f (.individual x qy qm qd) := by
  obtain ⟨hx, hn, hq, h0⟩ := h
  refine Or.inl ⟨_, C28_individual hf hx hn hq (noRight_left _ _ _) (not_noLeft h0), trivial, ?_⟩
  simp only [Term.Honoured, Term.Supported, iff_true]
  exact honours_date.2 ⟨rfl, rfl⟩

/-- A qualifier at the end only. -/
theorem group_end {x : Date0} {qy qm qd : Option Char} (hq : x.qOk (toRight qy) (toRight qm) (toRight qd))
    (h0 : (qy, qm, qd) ≠ (none, none, none)) (he : ¬ x.early (toRight qy) (toRight qm)) :
    ∃ q, q ∈ c! "?~%" ∧ x.qtext (toRight qy) (toRight qm) (toRight qd) = x.text ++ [q] ∧
      ∀ p, marked p (toRight qy) (toRight qm) (toRight qd) = x.whole p (some q) := by
  obtain ⟨neg, n, t⟩ := x
  obtain ⟨k1, k2, k3, k4⟩ := hq
  cases t with
  | none =>
    simp only [toRight_none] at k4
    obtain ⟨rfl, rfl⟩ := k4
    cases qy with
    | none => exact absurd rfl h0
    | some q =>
      refine ⟨q, right_mem k1, ?_, ?_⟩
      · simp [Date0.qtext, Date0.text, toRight, Deco.text]
      · intro p
        simp only [marked, toRight, Deco.isLeft, Deco.isRight, Date0.whole, Date0.components, Option.any_some]
        by_cases hp : p q = true
        · simp [hp]
        · rw [Bool.not_eq_true] at hp
          simp [hp]
  | month m =>
    simp only [toRight_none] at k4
    subst k4
    simp only [Date0.early, ne_eq, toRight_none, Decidable.not_not] at he
    subst he
    cases qm with
    | none => exact absurd rfl h0
    | some q =>
      refine ⟨q, right_mem k2, ?_, ?_⟩
      · simp [Date0.qtext, Date0.text, toRight, Deco.text]
      · intro p
        simp only [marked, toRight, Deco.isLeft, Deco.isRight, Date0.whole, Date0.components, Option.any_some]
        by_cases hp : p q = true
        · simp [hp]
        · rw [Bool.not_eq_true] at hp
          simp [hp]
  | day m d =>
    simp only [Date0.early, ne_eq, toRight_none, not_or, Decidable.not_not] at he
    obtain ⟨rfl, rfl⟩ := he
    cases qd with
    | none => exact absurd rfl h0
    | some q =>
      refine ⟨q, right_mem k3, ?_, ?_⟩
      · simp [Date0.qtext, Date0.text, toRight, Deco.text]
      · intro p
        simp only [marked, toRight, Deco.isLeft, Deco.isRight, Date0.whole, Date0.components, Option.any_some]
        by_cases hp : p q = true
        · simp [hp]
        · rw [Bool.not_eq_true] at hp
          simp [hp]

theorem verdict_group (hf : DayCount f) {x : Date0} {qy qm qd : Option Char} (h : (Term.group x qy qm qd).ok) : Verdict f (.group x qy qm qd) := by
  obtain ⟨hx, hn, hq, h0⟩ := h
  by_cases he : x.early (toRight qy) (toRight qm)
  · refine Or.inl ⟨_, C27_group_partial hf hx hn hq (noLeft_right _ _ _) he, trivial, ?_⟩
    simp only [Term.Honoured, Term.Supported, he, or_true, iff_true]
    exact honours_date.2 ⟨rfl, rfl⟩
  · obtain ⟨q, hq', e1, e2⟩ := group_end hq h0 he
    rcases verdict_qualified hf (x := x) (q := q) ⟨hx, hn, hq'⟩ with ⟨d, hd, -, hd'⟩ | ⟨-, h, -⟩
    · refine Or.inl ⟨d, ?_, trivial, ?_⟩
      · simp only [Term.text] at hd ⊢
        rw [e1]; exact hd
      · simp only [Term.Honoured, Term.Supported] at hd' ⊢
        rw [e2, e2, hd']
        simp only [he, or_false]
    · exact absurd trivial h

end EDTF
