/- C25, C26: sets. -/
import Verif.LemmasSet
namespace EDTF
open Spec

variable {f : Int → Nat → Nat → Int}

/-! ### Written order and calendar order -/

theorem dig_toNat : ∀ n, n < 10 → (dig n).toNat = 48 + n := by decide

theorem strLe_dig {a b : Nat} (ha : a < 10) (hb : b < 10) (s t : Str) :
    strLe (dig a :: s) (dig b :: t) = true ↔ a < b ∨ (a = b ∧ strLe s t = true) := by
  rw [show strLe (dig a :: s) (dig b :: t) = if (dig a).toNat < (dig b).toNat then true
    else if (dig b).toNat < (dig a).toNat then false else strLe s t from rfl, dig_toNat a ha, dig_toNat b hb]
  by_cases h1 : a < b
  · rw [if_pos (by omega)]; simp [h1]
  · by_cases h2 : b < a
    · rw [if_neg (by omega), if_pos (by omega)]; simp; omega
    · have : a = b := by omega
      subst this
      simp

theorem strLe_pad2 {a b : Nat} (ha : a < 100) (hb : b < 100) (s t : Str) :
    strLe (pad2 a ++ s) (pad2 b ++ t) = true ↔ a < b ∨ (a = b ∧ strLe s t = true) := by
  unfold pad2
  simp only [List.cons_append, List.nil_append]
  rw [strLe_dig (by omega) (by omega), strLe_dig (by omega) (by omega)]
  constructor
  · rintro (h | ⟨h, h' | ⟨h', k⟩⟩)
    · left; omega
    · left; omega
    · right; exact ⟨by omega, k⟩
  · rintro (h | ⟨rfl, k⟩)
    · by_cases e : a / 10 % 10 = b / 10 % 10
      · right; exact ⟨e, .inl (by omega)⟩
      · left; omega
    · right; exact ⟨rfl, .inr ⟨rfl, k⟩⟩

theorem strLe_pad4 {a b : Nat} (ha : a < 10000) (hb : b < 10000) (s t : Str) :
    strLe (pad4 a ++ s) (pad4 b ++ t) = true ↔ a < b ∨ (a = b ∧ strLe s t = true) := by
  have e : ∀ n, pad4 n = pad2 (n / 100) ++ pad2 (n % 100) := by
    intro n
    simp only [pad4, pad2, List.cons_append, List.nil_append]
    rw [show n / 100 / 10 % 10 = n / 1000 % 10 by omega, show n % 100 / 10 % 10 = n / 10 % 10 by omega,
      show n % 100 % 10 = n % 10 by omega]
  rw [e a, e b, List.append_assoc, List.append_assoc, strLe_pad2 (by omega) (by omega), strLe_pad2 (by omega) (by omega)]
  constructor
  · rintro (h | ⟨h, h' | ⟨h', k⟩⟩)
    · left; omega
    · left; omega
    · right; exact ⟨by omega, k⟩
  · rintro (h | ⟨rfl, k⟩)
    · by_cases e : a / 100 = b / 100
      · right; exact ⟨e, .inl (by omega)⟩
      · left; omega
    · right; exact ⟨rfl, .inr ⟨rfl, k⟩⟩

theorem strLe_dash (s t : Str) : strLe ('-' :: s) ('-' :: t) = strLe s t := by simp [strLe]

/-- For years that are not negative the written order agrees with the order of
first days, and puts the first day of the smaller not after the last day of the
larger; with equal precision it also agrees with the order of last days. -/
theorem text_order {a b : Date0} (ha : a.ok) (hb : b.ok) (na : a.neg = false) (nb : b.neg = false)
    (h : strLe a.text b.text = true) :
    dayLe a.value a.first.1 a.first.2 b.value b.first.1 b.first.2 ∧
    dayLe a.value a.first.1 a.first.2 b.value b.last.1 b.last.2 ∧
    (a.tail.same b.tail = true → dayLe a.value a.last.1 a.last.2 b.value b.last.1 b.last.2) := by
  rw [date0_text, date0_text] at h
  obtain ⟨an, ay, at'⟩ := a
  obtain ⟨bn, by', bt⟩ := b
  simp only at na nb
  subst na nb
  simp only [yearStr, sgn, Bool.false_eq_true, if_false] at h
  rw [strLe_pad4 ha.1 hb.1] at h
  have v : ∀ n t, (⟨false, n, t⟩ : Date0).value = (n : Int) := fun _ _ => rfl
  have h2a := ha.2
  have h2b := hb.2
  simp only at h
  simp only [dayLe, v]
  rw [v] at h2a h2b
  rcases h with h | ⟨h, k⟩
  · exact ⟨.inl (by omega), .inl (by omega), fun _ => .inl (by omega)⟩
  subst h
  have ml : ∀ m, 28 ≤ monthLen (ay : Int) m ∧ monthLen (ay : Int) m ≤ 31 := fun m => by
    unfold monthLen; split <;> (try split) <;> omega
  have p2 : ∀ {m m' : Nat}, m < 100 → m' < 100 → strLe (pad2 m) (pad2 m') = true → m ≤ m' := by
    intro m m' h1 h2 k
    rw [← List.append_nil (pad2 m), ← List.append_nil (pad2 m'), strLe_pad2 h1 h2] at k
    omega
  cases at' with
  | none =>
    cases bt with
    | none => exact ⟨.inr ⟨rfl, .inr ⟨rfl, Nat.le_refl _⟩⟩, .inr ⟨rfl, .inl (by simp [Date0.first, Date0.last])⟩,
        fun _ => .inr ⟨rfl, .inr ⟨rfl, Nat.le_refl _⟩⟩⟩
    | month m =>
      have := ml m
      simp only [Date0.first, Date0.last, v] at *
      exact ⟨.inr ⟨by trivial, by omega⟩, .inr ⟨by trivial, by omega⟩, fun e => by cases e⟩
    | day m d =>
      simp only [Date0.first, Date0.last, v, Valid] at *
      exact ⟨.inr ⟨by trivial, by omega⟩, .inr ⟨by trivial, by omega⟩, fun e => by cases e⟩
  | month m =>
    have := ml m
    cases bt with
    | none => cases k
    | month m' =>
      have := ml m'
      simp only [Date0.first, Date0.last, v, Valid, strLe_dash] at *
      have := p2 (by omega) (by omega) k
      refine ⟨.inr ⟨by trivial, by omega⟩, .inr ⟨by trivial, by omega⟩, fun _ => .inr ⟨by trivial, ?_⟩⟩
      by_cases e : m = m'
      · subst e; exact .inr ⟨rfl, Nat.le_refl _⟩
      · exact .inl (by omega)
    | day m' d' =>
      simp only [Date0.first, Date0.last, v, Valid, strLe_dash] at *
      have := ml m'
      rw [← List.append_nil (pad2 m), strLe_pad2 (by omega) (by omega)] at k
      exact ⟨.inr ⟨by trivial, by omega⟩, .inr ⟨by trivial, by omega⟩, fun e => by cases e⟩
  | day m d =>
    have := ml m
    cases bt with
    | none => cases k
    | month m' =>
      have := ml m'
      simp only [Date0.first, Date0.last, v, Valid, strLe_dash] at *
      rw [← List.append_nil (pad2 m'), strLe_pad2 (by omega) (by omega)] at k
      rcases k with k | ⟨-, k⟩
      · exact ⟨.inr ⟨by trivial, by omega⟩, .inr ⟨by trivial, by omega⟩, fun e => by cases e⟩
      · cases k
    | day m' d' =>
      have := ml m'
      simp only [Date0.first, Date0.last, v, Valid, strLe_dash] at *
      rw [strLe_pad2 (by omega) (by omega)] at k
      have : m < m' ∨ (m = m' ∧ d ≤ d') := by
        rcases k with k | ⟨e, k⟩
        · exact .inl k
        · rw [strLe_dash] at k
          exact .inr ⟨e, p2 (by omega) (by omega) k⟩
      exact ⟨.inr ⟨by trivial, this⟩, .inr ⟨by trivial, this⟩, fun _ => .inr ⟨by trivial, this⟩⟩

theorem day_order (hf : DayCount f) {y1 y2 : Int} {m1 d1 m2 d2 : Nat} (V1 : Valid y1 m1 d1) (V2 : Valid y2 m2 d2)
    (h : dayLe y1 m1 d1 y2 m2 d2) : f y1 m1 d1 ≤ f y2 m2 d2 := by
  rw [dayCount_eq hf V1, dayCount_eq hf V2]
  exact unixDay_le V1 V2 h

/-! ### The exact results -/

/-- The least and greatest member in written order. -/
def Least (a : Date0) (l : List Date0) : Prop := a ∈ l ∧ ∀ x ∈ l, strLe a.text x.text = true
def Greatest (b : Date0) (l : List Date0) : Prop := b ∈ l ∧ ∀ x ∈ l, strLe x.text b.text = true

theorem exists_ends {l : List Date0} (hl : l ≠ []) : ∃ a b, Least a l ∧ Greatest b l ∧
    (sortStrings (l.map Date0.text)).headD [] = a.text ∧ (sortStrings (l.map Date0.text)).getLastD [] = b.text := by
  have hs := sorted_sortStrings (l.map Date0.text)
  have hne : sortStrings (l.map Date0.text) ≠ [] := by
    intro e
    have := congrArg List.length e
    rw [length_sortStrings] at this
    simp at this
    exact hl this
  obtain ⟨h1, h2⟩ := sorted_head hs hne
  obtain ⟨h3, h4⟩ := sorted_last hs hne
  obtain ⟨a, ha, ea⟩ := List.mem_map.1 (mem_sortStrings.1 h1)
  obtain ⟨b, hb, eb⟩ := List.mem_map.1 (mem_sortStrings.1 h3)
  refine ⟨a, b, ⟨ha, fun x hx => ?_⟩, ⟨hb, fun x hx => ?_⟩, ea.symm, eb.symm⟩
  · rw [ea]; exact h2 _ (mem_sortStrings.2 (List.mem_map.2 ⟨x, hx, rfl⟩))
  · rw [eb]; exact h4 _ (mem_sortStrings.2 (List.mem_map.2 ⟨x, hx, rfl⟩))

theorem members_ne_nil {ps : List Part} (h : ps ≠ []) : members ps ≠ [] := by
  obtain ⟨p, ps', rfl⟩ := List.exists_cons_of_ne_nil h
  cases p <;> simp [members, Part.dates]

/-- The date span of the one or two strings that a set is reduced to. -/
theorem setSpan_closed {l : List Str} {a b : Date0} (ha : a.ok) (hb : b.ok) (h1 : l.headD [] = a.text) (h2 : l.getLastD [] = b.text) (p : Prec) :
    L2.setSpan l false false p =
      if a.text = b.text then
        (.ok ⟨(spanRec a.text a.value a.first.1 a.first.2 a.value a.last.1 a.last.2 (Date0.isDay a) 0 0 Prec.YEAR).start.map (flagged p),
             (spanRec a.text a.value a.first.1 a.first.2 a.value a.last.1 a.last.2 (Date0.isDay a) 0 0 Prec.YEAR).stop.map (flagged p)⟩)
      else .ok ⟨some (flagged p (a.range U a.text 0 0 Prec.YEAR)), some (flagged p (b.range U b.text 0 0 Prec.YEAR))⟩ := by
  unfold L2.setSpan L2.setString
  simp only [h1, h2, Bool.or_self, Bool.false_and, Bool.false_eq_true, if_false, L2.openPostFactoIf, L2.setInclusivityIf, Bool.not_false, if_true]
  by_cases e : a.text = b.text
  · rw [if_neg (by simp [e]), dateSpanFromEDTF_noSlash (date0_not_mem a (by decide) (by decide)), span_text ha, if_pos e]
    cases Date0.isDay a <;> rfl
  · rw [if_pos e, if_neg e]
    have := span_sides (l := .date a) (r := .date b) ha hb
    rw [show a.text ++ c! "/" ++ b.text = (Side.date a).text ++ '/' :: (Side.date b).text by simp [Side.text], this]
    rfl

theorem setSpan_upTo1 {l : List Str} {a : Date0} (ha : a.ok) (hl : l.length ≤ 1) (h1 : l.headD [] = a.text) (p : Prec) :
    L2.setSpan l true false p = .ok ⟨some (Side.opened.range U), some (flagged p (a.range U a.text 0 0 Prec.YEAR))⟩ := by
  unfold L2.setSpan L2.setString
  have hn : decide (l.length > 1) = false := by simp; omega
  simp only [h1, hn, Bool.and_false, Bool.false_eq_true, if_false, L2.openPostFactoIf, L2.setInclusivityIf, Bool.not_false, Bool.not_true, if_true]
  have := span_sides (l := .opened) (r := .date a) trivial ha
  rw [show c! "../" ++ a.text = Side.opened.text ++ '/' :: (Side.date a).text by simp [Side.text], this]
  rfl

theorem setSpan_onFrom1 {l : List Str} {a : Date0} (ha : a.ok) (hl : l.length ≤ 1) (h1 : l.headD [] = a.text) (p : Prec) :
    L2.setSpan l false true p = .ok ⟨some (flagged p (a.range U a.text 0 0 Prec.YEAR)), some (Side.opened.range U)⟩ := by
  unfold L2.setSpan L2.setString
  have hn : decide (l.length > 1) = false := by simp; omega
  simp only [h1, hn, Bool.and_false, Bool.false_eq_true, if_false, L2.openPostFactoIf, L2.setInclusivityIf, Bool.not_false, Bool.not_true, if_true]
  have := span_sides (l := .date a) (r := .opened) ha trivial
  rw [show a.text ++ c! "/.." = (Side.date a).text ++ '/' :: Side.opened.text by simp [Side.text], this]
  rfl

/-- Two or more members with an open side. -/
theorem setSpan_open {l : List Str} {a b : Date0} (ha : a.ok) (hb : b.ok) (hl : 1 < l.length) (h1 : l.headD [] = a.text)
    (h2 : l.getLastD [] = b.text) (so eo : Bool) (h : (so || eo) = true) (p : Prec) :
    L2.setSpan l so eo p = .ok
      (if so && eo then
        ⟨some ⟨[], some openEnd, some (dayEnd U b.value b.last.1 b.last.2 0 0 Prec.YEAR)⟩,
         some ⟨[], some openEnd, some (dayEnd U b.value b.last.1 b.last.2 0 0 Prec.YEAR)⟩⟩
      else if so then
        ⟨some ⟨[], some openEnd, some openEnd⟩,
         some (flagged p ⟨b.text, some (dayStart U a.value a.first.1 a.first.2 0 0 Prec.YEAR), some (dayEnd U b.value b.last.1 b.last.2 0 0 Prec.YEAR)⟩)⟩
      else
        ⟨some (flagged p ⟨a.text, some (dayStart U a.value a.first.1 a.first.2 0 0 Prec.YEAR), some (dayEnd U b.value b.last.1 b.last.2 0 0 Prec.YEAR)⟩),
         some ⟨[], some openEnd, some openEnd⟩⟩) := by
  unfold L2.setSpan L2.setString
  have hn : decide (l.length > 1) = true := by simpa using hl
  simp only [h1, h2, hn, h, Bool.and_self, if_true]
  have := span_sides (l := .date a) (r := .date b) ha hb
  rw [show a.text ++ c! "/" ++ b.text = (Side.date a).text ++ '/' :: (Side.date b).text by simp [Side.text], this]
  cases so <;> cases eo <;> first | (cases h; done) | rfl

theorem ok_shape' {x : Date0} (h : x.ok) : Shape x := ⟨h.1, Date0.ok_shape h⟩

theorem not_any {ps : List Part} {q : Part → Bool} (h : ∀ p ∈ ps, q p = false) : ps.any q = false := by
  rw [List.any_eq_false]; intro p hp; simp [h p hp]

/-- The bounds of a closed set are the first second of its least and the last
second of its greatest member in written order. -/
theorem set_closed (hf : DayCount f) {o c : Char} (hb : Brackets o c) {ps : List Part} (h0 : ps ≠ [])
    (h1 : ∀ p ∈ ps, p.isUpTo = false) (h2 : ∀ p ∈ ps, p.isOnFrom = false) (hok : ∀ x ∈ members ps, x.ok) :
    ∃ (a b : Date0) (d : EDTFDate) (s1 s2 e1 e2 : Date), Least a (members ps) ∧ Greatest b (members ps) ∧
      parseString (setText o c ps) = .ok d ∧ d.level = 2 ∧ d.feature = c! "Set representation" ∧ d.edtf = setText o c ps ∧
      d.lower = .ok (firstSecond f a) ∧ d.upper = .ok (lastSecond f b) ∧
      d.start = some ⟨a.text, some s1, some s2⟩ ∧ d.stop = some ⟨b.text, some e1, some e2⟩ ∧
      (∀ x ∈ [s1, s2, e1, e2], x.inclusivity = setFlag o ∧ x.isOpen = false ∧ x.unknown = false) := by
  have hS : SetOk ps := ⟨h0, fun p hp => h1 p (List.mem_of_mem_drop hp), fun p hp => h2 p (List.dropLast_subset _ hp)⟩
  obtain ⟨a, b, la, gb, ea, eb⟩ := exists_ends (members_ne_nil h0)
  have hA := hok a la.1
  have hB := hok b gb.1
  have fa := dayCount_eq hf (Date0.valid_first hA)
  have fb := dayCount_eq hf (Date0.valid_last hB)
  have hp := parse_set hb hS (fun x hx => ok_shape' (hok x hx))
  rw [not_any h1, not_any h2, setSpan_closed hA hB ea eb] at hp
  by_cases e : a.text = b.text
  · rw [if_pos e] at hp
    have fa' := dayCount_eq hf (Date0.valid_last hA)
    -- equal texts: the least member is also the greatest
    have ga : Greatest a (members ps) := ⟨la.1, fun x hx => by rw [e]; exact gb.2 x hx⟩
    refine ⟨a, a, _, _, _, _, _, la, ga, hp, rfl, rfl, rfl, ?_, ?_, rfl, rfl, ?_⟩
    · unfold firstSecond; rw [fa]
      simp [EDTFDate.lower, mkEDTF, spanRec, flagged, dayStart, dated]
    · unfold lastSecond; rw [fa']
      simp [EDTFDate.upper, mkEDTF, spanRec, flagged, dayEnd, dated]
    · intro x hx
      simp only [List.mem_cons, List.not_mem_nil, or_false] at hx
      rcases hx with rfl | rfl | rfl | rfl <;> cases Date0.isDay a <;> exact ⟨rfl, rfl, rfl⟩
  · rw [if_neg e] at hp
    refine ⟨a, b, _, _, _, _, _, la, gb, hp, rfl, rfl, rfl, ?_, ?_, rfl, rfl, ?_⟩
    · unfold firstSecond; rw [fa]
      simp [EDTFDate.lower, mkEDTF, Date0.range, flagged, dayStart, dated]
    · unfold lastSecond; rw [fb]
      simp [EDTFDate.upper, mkEDTF, Date0.range, flagged, dayEnd, dated]
    · intro x hx
      simp only [List.mem_cons, List.not_mem_nil, or_false] at hx
      rcases hx with rfl | rfl | rfl | rfl <;> exact ⟨rfl, rfl, rfl⟩


/-! ### C25 -/

/-- C25 for sets of dates of years 0000-9999 (any length, any order, written
singly or in pairs `a..b`): the lower bound is the earliest first second of the
members, and, if the members are written with the same precision, the upper
bound is the latest last second.  Missing for the full statement: negative years
and mixed precision, where it is false (`C25_negation`). -/
theorem C25_bounds_partial (hf : DayCount f) {o c : Char} (hb : Brackets o c) {ps : List Part} (h0 : ps ≠ [])
    (h1 : ∀ p ∈ ps, p.isUpTo = false) (h2 : ∀ p ∈ ps, p.isOnFrom = false) (hok : ∀ x ∈ members ps, x.ok)
    (hpos : ∀ x ∈ members ps, x.neg = false) :
    ∃ (d : EDTFDate) (lo up : Int), parseString (setText o c ps) = .ok d ∧ d.lower = .ok lo ∧ d.upper = .ok up ∧
      (∃ x ∈ members ps, lo = firstSecond f x) ∧ (∀ x ∈ members ps, lo ≤ firstSecond f x) ∧
      (∃ x ∈ members ps, up = lastSecond f x) ∧
      ((∀ x ∈ members ps, ∀ y ∈ members ps, x.tail.same y.tail = true) → ∀ x ∈ members ps, lastSecond f x ≤ up) := by
  obtain ⟨a, b, d, s1, s2, e1, e2, la, gb, hp, -, -, -, lo, up, -⟩ := set_closed hf hb h0 h1 h2 hok
  refine ⟨d, _, _, hp, lo, up, ⟨a, la.1, rfl⟩, fun x hx => ?_, ⟨b, gb.1, rfl⟩, fun hs x hx => ?_⟩
  · have := text_order (hok a la.1) (hok x hx) (hpos a la.1) (hpos x hx) (la.2 x hx)
    have := day_order hf (Date0.valid_first (hok a la.1)) (Date0.valid_first (hok x hx)) this.1
    unfold firstSecond; omega
  · have := text_order (hok x hx) (hok b gb.1) (hpos x hx) (hpos b gb.1) (gb.2 x hx)
    have := day_order hf (Date0.valid_last (hok x hx)) (Date0.valid_last (hok b gb.1)) (this.2.2 (hs x hx b gb.1))
    unfold lastSecond; omega

/-- What happens for every closed set of existing dates, negative years and
mixed precision included: the lower bound is the first second of the member
whose text comes first in the order of strings, the upper bound the last second
of the one whose text comes last. -/
theorem C25_text_order_partial (hf : DayCount f) {o c : Char} (hb : Brackets o c) {ps : List Part} (h0 : ps ≠ [])
    (h1 : ∀ p ∈ ps, p.isUpTo = false) (h2 : ∀ p ∈ ps, p.isOnFrom = false) (hok : ∀ x ∈ members ps, x.ok) :
    ∃ (a b : Date0) (d : EDTFDate), a ∈ members ps ∧ b ∈ members ps ∧
      (∀ x ∈ members ps, strLe a.text x.text = true ∧ strLe x.text b.text = true) ∧
      parseString (setText o c ps) = .ok d ∧ d.lower = .ok (firstSecond f a) ∧ d.upper = .ok (lastSecond f b) := by
  obtain ⟨a, b, d, s1, s2, e1, e2, la, gb, hp, -, -, -, lo, up, -⟩ := set_closed hf hb h0 h1 h2 hok
  exact ⟨a, b, d, la.1, gb.1, fun x hx => ⟨la.2 x hx, gb.2 x hx⟩, hp, lo, up⟩

/-- "[1984,1667..1670,1700]" is such a set. -/
example : ∃ (d : EDTFDate) (lo up : Int), parseString (c! "[1984,1667..1670,1700]") = .ok d ∧ d.lower = .ok lo ∧ d.upper = .ok up ∧
    lo ≤ 86400 * unixDay 1667 1 1 ∧ 86400 * unixDay 1984 12 31 + 86399 ≤ up := by
  obtain ⟨d, lo, up, hp, hl, hu, -, hlo, -, hup⟩ := C25_bounds_partial dayCount_unixDay
    (o := '[') (c := ']') (by decide)
    (ps := [.one ⟨false, 1984, .none⟩, .pair ⟨false, 1667, .none⟩ ⟨false, 1670, .none⟩, .one ⟨false, 1700, .none⟩])
    (by decide) (by decide) (by decide) (by decide) (by decide)
  exact ⟨d, lo, up, hp, hl, hu, hlo ⟨false, 1667, .none⟩ (by decide), hup (by decide) ⟨false, 1984, .none⟩ (by decide)⟩

theorem firstSecond_eq (hf : DayCount f) {x : Date0} (h : x.ok) : firstSecond f x = firstSecond U x := by
  unfold firstSecond; rw [dayCount_eq hf (Date0.valid_first h)]

theorem lastSecond_eq (hf : DayCount f) {x : Date0} (h : x.ok) : lastSecond f x = lastSecond U x := by
  unfold lastSecond; rw [dayCount_eq hf (Date0.valid_last h)]

/-- C25 is false in general: "{-0100,-0200}" starts in year -100, after its
member -200, and ends with -200, before its member -100; "{1667,1667-01}" ends
with January 1667 although 1667 is a member. -/
theorem C25_negation (hf : DayCount f) :
    (∃ d : EDTFDate, parseString (c! "{-0100,-0200}") = .ok d ∧ d.lower = .ok (firstSecond f ⟨true, 100, .none⟩) ∧
      d.upper = .ok (lastSecond f ⟨true, 200, .none⟩) ∧
      firstSecond f ⟨true, 200, .none⟩ < firstSecond f ⟨true, 100, .none⟩ ∧ lastSecond f ⟨true, 200, .none⟩ < lastSecond f ⟨true, 100, .none⟩) ∧
    (∃ d : EDTFDate, parseString (c! "{1667,1667-01}") = .ok d ∧ d.upper = .ok (lastSecond f ⟨false, 1667, .month 1⟩) ∧
      lastSecond f ⟨false, 1667, .month 1⟩ < lastSecond f ⟨false, 1667, .none⟩) := by
  have e1 := firstSecond_eq hf (x := ⟨true, 100, .none⟩) (by decide)
  have e2 := firstSecond_eq hf (x := ⟨true, 200, .none⟩) (by decide)
  have e3 := lastSecond_eq hf (x := ⟨true, 100, .none⟩) (by decide)
  have e4 := lastSecond_eq hf (x := ⟨true, 200, .none⟩) (by decide)
  have e5 := lastSecond_eq hf (x := ⟨false, 1667, .month 1⟩) (by decide)
  have e6 := lastSecond_eq hf (x := ⟨false, 1667, .none⟩) (by decide)
  rw [e1, e2, e3, e4, e5, e6]
  exact ⟨⟨_, rfl, by decide +kernel, by decide +kernel, by decide +kernel, by decide +kernel⟩, _, rfl, by decide +kernel, by decide +kernel⟩

/-! ### C26 -/

/-- C26: every boundary of a closed set carries the flag of its opening bracket,
ANY for `[` and ALL for `{`. -/
theorem C26_flag_partial (hf : DayCount f) {o c : Char} (hb : Brackets o c) {ps : List Part} (h0 : ps ≠ [])
    (h1 : ∀ p ∈ ps, p.isUpTo = false) (h2 : ∀ p ∈ ps, p.isOnFrom = false) (hok : ∀ x ∈ members ps, x.ok) :
    ∃ (d : EDTFDate) (st en : DateRange) (s1 s2 e1 e2 : Date), parseString (setText o c ps) = .ok d ∧
      d.start = some st ∧ d.stop = some en ∧ st.lower = some s1 ∧ st.upper = some s2 ∧ en.lower = some e1 ∧ en.upper = some e2 ∧
      ∀ x ∈ [s1, s2, e1, e2], x.isOpen = false ∧ x.inclusivity = (if o = '[' then Prec.ANY else Prec.ALL) := by
  obtain ⟨a, b, d, s1, s2, e1, e2, la, gb, hp, -, -, -, -, -, hst, hen, h⟩ := set_closed hf hb h0 h1 h2 hok
  exact ⟨d, _, _, s1, s2, e1, e2, hp, hst, hen, rfl, rfl, rfl, rfl, fun x hx => ⟨(h x hx).2.1, (h x hx).1⟩⟩

/-- The two flags differ. -/
theorem C26_flags_differ : Prec.ANY ≠ Prec.ALL ∧ Prec.ANY ≠ 0 ∧ Prec.ALL ≠ 0 := by decide

example : ∃ d : EDTFDate, parseString (c! "{1960,1961-12,1700..1704}") = .ok d := by
  obtain ⟨d, -, -, -, -, -, -, h, -⟩ := C26_flag_partial dayCount_unixDay (o := '{') (c := '}') (by decide)
    (ps := [.one ⟨false, 1960, .none⟩, .one ⟨false, 1961, .month 12⟩, .pair ⟨false, 1700, .none⟩ ⟨false, 1704, .none⟩])
    (by decide) (by decide) (by decide) (by decide)
  exact ⟨d, h⟩

theorem flagged_congr (hf : DayCount f) {x : Date0} (h : x.ok) (p : Prec) :
    flagged p (x.range U x.text 0 0 Prec.YEAR) = flagged p (x.range f x.text 0 0 Prec.YEAR) :=
  congrArg (flagged p) (side_congr hf (x := .date x) h)

/-- C26: `[..D]` and `{..D}` have an open start and the whole of D, flagged, as
their end. -/
theorem C26_upTo (hf : DayCount f) {o c : Char} (hb : Brackets o c) {x : Date0} (h : x.ok) :
    ∃ d : EDTFDate, parseString (o :: (c! ".." ++ x.text ++ [c])) = .ok d ∧ d.level = 2 ∧
      d.start = some ⟨c! "..", some openEnd, some openEnd⟩ ∧
      d.stop = some (flagged (setFlag o) (x.range f x.text 0 0 Prec.YEAR)) := by
  have hp := parse_set hb (ps := [.upTo x]) ⟨by simp, by simp, by simp⟩ (fun y hy => by
    simp only [members, Part.dates, List.flatMap_cons, List.flatMap_nil, List.append_nil, List.mem_singleton] at hy
    rw [hy]; exact ok_shape' h)
  rw [show [Part.upTo x].any Part.isUpTo = true from rfl, show [Part.upTo x].any Part.isOnFrom = false from rfl,
    setSpan_upTo1 h (by rw [length_sortStrings]; simp [members, Part.dates]) (by rfl)] at hp
  refine ⟨_, hp, rfl, rfl, ?_⟩
  rw [← flagged_congr hf h]
  rfl

/-- C26: `[D..]` and `{D..}` have the whole of D, flagged, as their start and an
open end. -/
theorem C26_onFrom (hf : DayCount f) {o c : Char} (hb : Brackets o c) {x : Date0} (h : x.ok) :
    ∃ d : EDTFDate, parseString (o :: (x.text ++ c! ".." ++ [c])) = .ok d ∧ d.level = 2 ∧
      d.start = some (flagged (setFlag o) (x.range f x.text 0 0 Prec.YEAR)) ∧
      d.stop = some ⟨c! "..", some openEnd, some openEnd⟩ := by
  have hp := parse_set hb (ps := [.onFrom x]) ⟨by simp, by simp, by simp⟩ (fun y hy => by
    simp only [members, Part.dates, List.flatMap_cons, List.flatMap_nil, List.append_nil, List.mem_singleton] at hy
    rw [hy]; exact ok_shape' h)
  rw [show [Part.onFrom x].any Part.isUpTo = false from rfl, show [Part.onFrom x].any Part.isOnFrom = true from rfl,
    setSpan_onFrom1 h (by rw [length_sortStrings]; simp [members, Part.dates]) (by rfl)] at hp
  refine ⟨_, hp, rfl, ?_, rfl⟩
  rw [← flagged_congr hf h]
  rfl

example : (⟨false, 1760, .month 12⟩ : Date0).ok ∧ '[' :: (c! ".." ++ (⟨false, 1760, .month 12⟩ : Date0).text ++ [']']) = c! "[..1760-12]" := by
  decide

/-- C26, sets of two or more dates with one open side: the other side runs from
the first second of the least to the last second of the greatest member (in the
order of texts) and both its boundaries are flagged. -/
theorem C26_one_side_partial (hf : DayCount f) {o c : Char} (hb : Brackets o c) {ps : List Part} (hS : SetOk ps)
    (h2 : 2 ≤ (members ps).length) (hok : ∀ x ∈ members ps, x.ok) (hx : (ps.any Part.isUpTo != ps.any Part.isOnFrom) = true) :
    ∃ (a b : Date0) (d : EDTFDate) (r : DateRange) (t : Str), Least a (members ps) ∧ Greatest b (members ps) ∧
      parseString (setText o c ps) = .ok d ∧
      r = flagged (setFlag o) ⟨t, some (dayStart f a.value a.first.1 a.first.2 0 0 Prec.YEAR), some (dayEnd f b.value b.last.1 b.last.2 0 0 Prec.YEAR)⟩ ∧
      ((ps.any Part.isUpTo = true ∧ d.start = some ⟨[], some openEnd, some openEnd⟩ ∧ d.stop = some r) ∨
       (ps.any Part.isOnFrom = true ∧ d.start = some r ∧ d.stop = some ⟨[], some openEnd, some openEnd⟩)) := by
  obtain ⟨a, b, la, gb, ea, eb⟩ := exists_ends (members_ne_nil hS.1)
  have hA := hok a la.1
  have hB := hok b gb.1
  have ca : dayStart f a.value a.first.1 a.first.2 0 0 Prec.YEAR = dayStart U a.value a.first.1 a.first.2 0 0 Prec.YEAR := by
    unfold dayStart dated; rw [dayCount_eq hf (Date0.valid_first hA)]
  have cb : dayEnd f b.value b.last.1 b.last.2 0 0 Prec.YEAR = dayEnd U b.value b.last.1 b.last.2 0 0 Prec.YEAR := by
    unfold dayEnd dated; rw [dayCount_eq hf (Date0.valid_last hB)]
  have hp := parse_set hb hS (fun x hx => ok_shape' (hok x hx))
  have hl : 1 < (sortStrings ((members ps).map Date0.text)).length := by rw [length_sortStrings]; simp; omega
  cases so : ps.any Part.isUpTo <;> cases eo : ps.any Part.isOnFrom <;> rw [so, eo] at hx hp
  · cases hx
  · rw [setSpan_open hA hB hl ea eb false true rfl] at hp
    exact ⟨a, b, _, _, _, la, gb, hp, by rw [ca, cb], .inr ⟨rfl, rfl, rfl⟩⟩
  · rw [setSpan_open hA hB hl ea eb true false rfl] at hp
    exact ⟨a, b, _, _, _, la, gb, hp, by rw [ca, cb], .inl ⟨rfl, rfl, rfl⟩⟩
  · cases hx

/-- "[..1984,1990,1988]" is such a set. -/
example : SetOk [.upTo ⟨false, 1984, .none⟩, .one ⟨false, 1990, .none⟩, .one ⟨false, 1988, .none⟩] ∧
    setText '[' ']' [.upTo ⟨false, 1984, .none⟩, .one ⟨false, 1990, .none⟩, .one ⟨false, 1988, .none⟩] = c! "[..1984,1990,1988]" := by
  refine ⟨⟨by decide, by decide, by decide⟩, by decide⟩

/-- C26, sets of two or more dates open on both sides: no boundary is flagged
and both ranges are the same one, open below and ending with the greatest
member. -/
theorem C26_both_sides_partial (hf : DayCount f) {o c : Char} (hb : Brackets o c) {ps : List Part} (hS : SetOk ps)
    (h2 : 2 ≤ (members ps).length) (hok : ∀ x ∈ members ps, x.ok) (h3 : ps.any Part.isUpTo = true) (h4 : ps.any Part.isOnFrom = true) :
    ∃ (b : Date0) (d : EDTFDate) (r : DateRange), Greatest b (members ps) ∧ parseString (setText o c ps) = .ok d ∧
      r = ⟨[], some openEnd, some (dayEnd f b.value b.last.1 b.last.2 0 0 Prec.YEAR)⟩ ∧ d.start = some r ∧ d.stop = some r := by
  obtain ⟨a, b, la, gb, ea, eb⟩ := exists_ends (members_ne_nil hS.1)
  have hA := hok a la.1
  have hB := hok b gb.1
  have cb : dayEnd f b.value b.last.1 b.last.2 0 0 Prec.YEAR = dayEnd U b.value b.last.1 b.last.2 0 0 Prec.YEAR := by
    unfold dayEnd dated; rw [dayCount_eq hf (Date0.valid_last hB)]
  have hp := parse_set hb hS (fun x hx => ok_shape' (hok x hx))
  have hl : 1 < (sortStrings ((members ps).map Date0.text)).length := by rw [length_sortStrings]; simp; omega
  rw [h3, h4, setSpan_open hA hB hl ea eb true true rfl] at hp
  exact ⟨b, _, _, gb, hp, by rw [cb], rfl, rfl⟩

example : SetOk [.upTo ⟨false, 1984, .none⟩, .one ⟨false, 1988, .month 2⟩, .onFrom ⟨false, 1990, .none⟩] ∧
    setText '{' ']' [.upTo ⟨false, 1984, .none⟩, .one ⟨false, 1988, .month 2⟩, .onFrom ⟨false, 1990, .none⟩] = c! "{..1984,1988-02,1990..]" := by
  refine ⟨⟨by decide, by decide, by decide⟩, by decide⟩

/-- The flag part of C26 is false for sets open on both sides: in
"[..1984,1990..]" the end of 1990 is a dated boundary without the flag, and the
upper side is not open. -/
theorem C26_negation (hf : DayCount f) :
    ∃ (d : EDTFDate) (r : DateRange) (b : Date), parseString (c! "[..1984,1990..]") = .ok d ∧ d.stop = some r ∧ r.upper = some b ∧
      b.isOpen = false ∧ b.inclusivity = 0 := by
  obtain ⟨b, d, r, -, h, hr, -, h5⟩ := C26_both_sides_partial hf (o := '[') (c := ']') (by decide)
    (ps := [.upTo ⟨false, 1984, .none⟩, .onFrom ⟨false, 1990, .none⟩]) ⟨by decide, by decide, by decide⟩ (by decide) (by decide) rfl rfl
  exact ⟨d, r, _, h, h5, by rw [hr], rfl, rfl⟩

end EDTF
