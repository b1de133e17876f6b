/- For C87: sets. -/
import Verif.LemmasStandard
namespace EDTF
open Spec
variable {f : Int → Nat → Nat → Int}

/-! ### The record -/

theorem dawn_same (hf : DayCount f) {x : Date0} (h : x.ok) (p : Prec) :
    dayStart U x.value x.first.1 x.first.2 0 0 p = dayStart f x.value x.first.1 x.first.2 0 0 p := by
  unfold dayStart dated; rw [dayCount_eq hf (Date0.valid_first h)]

theorem dusk_same (hf : DayCount f) {x : Date0} (h : x.ok) (p : Prec) :
    dayEnd U x.value x.last.1 x.last.2 0 0 p = dayEnd f x.value x.last.1 x.last.2 0 0 p := by
  unfold dayEnd dated; rw [dayCount_eq hf (Date0.valid_last h)]

theorem members_length (ps : List Part) : ps.length ≤ (members ps).length := by
  unfold members
  induction ps with
  | nil => simp
  | cons p ps ih =>
    simp only [List.flatMap_cons, List.length_append, List.length_cons]
    have : 1 ≤ p.dates.length := by cases p <;> simp [Part.dates]
    omega

/-- The outer boundaries of a set. -/
theorem set_record (hf : DayCount f) {o c : Char} (hb : Brackets o c) {ps : List Part} (hS : SetOk ps) (hok : ∀ x ∈ members ps, x.ok) :
    ∃ (a b : Date0) (d : EDTFDate) (S E : DateRange) (lo up : Date), Least a (members ps) ∧ Greatest b (members ps) ∧
      parseString (setText o c ps) = .ok d ∧ d.start = some S ∧ d.stop = some E ∧ S.lower = some lo ∧ E.upper = some up ∧
      (ps.any Part.isUpTo = true → lo = openEnd) ∧
      (ps.any Part.isUpTo = false → lo = { dayStart f a.value a.first.1 a.first.2 0 0 Prec.YEAR with inclusivity := setFlag o }) ∧
      (ps.any Part.isOnFrom = true → ps.any Part.isUpTo = false → up = openEnd) ∧
      (ps.any Part.isOnFrom = true → ps.any Part.isUpTo = true → up.isOpen = false) ∧
      (ps.any Part.isOnFrom = false → up = { dayEnd f b.value b.last.1 b.last.2 0 0 Prec.YEAR with inclusivity := setFlag o }) := by
  obtain ⟨a, b, la, gb, ea, eb⟩ := exists_ends (members_ne_nil hS.1)
  have hA := hok a la.1
  have hB := hok b gb.1
  have hp := parse_set hb hS (fun x hx => ok_shape' (hok x hx))
  have hlen : (sortStrings ((members ps).map Date0.text)).length = (members ps).length := by rw [length_sortStrings]; simp
  have hne : (members ps).length ≠ 0 := fun k => members_ne_nil hS.1 (List.length_eq_zero_iff.1 k)
  -- one member only: it is both the least and the greatest
  have one : (members ps).length ≤ 1 → Greatest a (members ps) := by
    intro hl
    refine ⟨la.1, fun x hx => ?_⟩
    have : ∃ z, members ps = [z] := List.length_eq_one_iff.1 (by omega)
    obtain ⟨z, hz⟩ := this
    have h1 := la.1
    rw [hz] at h1 hx
    rw [List.mem_singleton.1 h1, List.mem_singleton.1 hx]
    exact strLe_refl _
  cases so : ps.any Part.isUpTo <;> cases eo : ps.any Part.isOnFrom <;> rw [so, eo] at hp
  · rw [setSpan_closed hA hB ea eb] at hp
    by_cases e : a.text = b.text
    · rw [if_pos e] at hp
      have ga : Greatest a (members ps) := ⟨la.1, fun x hx => by rw [e]; exact gb.2 x hx⟩
      refine ⟨a, a, _, _, _, _, _, la, ga, hp, rfl, rfl, rfl, rfl, nofun, fun _ => ?_, nofun, nofun, fun _ => ?_⟩
      · rw [← dawn_same hf hA]
      · rw [← dusk_same hf hA]
    · rw [if_neg e] at hp
      refine ⟨a, b, _, _, _, _, _, la, gb, hp, rfl, rfl, rfl, rfl, nofun, fun _ => ?_, nofun, nofun, fun _ => ?_⟩
      · rw [← dawn_same hf hA]
      · rw [← dusk_same hf hB]
  · rcases Nat.lt_or_ge 1 (members ps).length with hl | hl
    · rw [setSpan_open hA hB (by omega) ea eb false true rfl] at hp
      refine ⟨a, b, _, _, _, _, _, la, gb, hp, rfl, rfl, rfl, rfl, nofun, fun _ => ?_, fun _ _ => rfl, nofun, nofun⟩
      rw [← dawn_same hf hA]
    · rw [setSpan_onFrom1 hA (by omega) ea] at hp
      refine ⟨a, b, _, _, _, _, _, la, gb, hp, rfl, rfl, rfl, rfl, nofun, fun _ => ?_, fun _ _ => rfl, nofun, nofun⟩
      rw [← dawn_same hf hA]
  · rcases Nat.lt_or_ge 1 (members ps).length with hl | hl
    · rw [setSpan_open hA hB (by omega) ea eb true false rfl] at hp
      refine ⟨a, b, _, _, _, _, _, la, gb, hp, rfl, rfl, rfl, rfl, fun _ => rfl, nofun, nofun, nofun, fun _ => ?_⟩
      rw [← dusk_same hf hB]
    · rw [setSpan_upTo1 hA (by omega) ea] at hp
      refine ⟨a, a, _, _, _, _, _, la, one hl, hp, rfl, rfl, rfl, rfl, fun _ => rfl, nofun, nofun, nofun, fun _ => ?_⟩
      rw [← dusk_same hf hA]
  · rcases Nat.lt_or_ge 1 (members ps).length with hl | hl
    · rw [setSpan_open hA hB (by omega) ea eb true true rfl] at hp
      exact ⟨a, b, _, _, _, _, _, la, gb, hp, rfl, rfl, rfl, rfl, fun _ => rfl, nofun, nofun, fun _ _ => rfl, nofun⟩
    · exfalso
      obtain ⟨p, hp1, hp2⟩ := List.any_eq_true.1 so
      obtain ⟨q, hq1, hq2⟩ := List.any_eq_true.1 eo
      have hl1 := members_length ps
      have : ps.length = 1 := by
        have : ps.length ≠ 0 := fun k => hS.1 (List.length_eq_zero_iff.1 k)
        omega
      obtain ⟨z, rfl⟩ := List.length_eq_one_iff.1 this
      rw [List.mem_singleton.1 hp1] at hp2
      rw [List.mem_singleton.1 hq1] at hq2
      cases z <;> simp [Part.isUpTo, Part.isOnFrom] at hp2 hq2

/-! ### Order -/

theorem ends_by (hf : DayCount f) {a b : Date0} (ha : a.ok) (hb : b.ok) (na : a.neg = false) (nb : b.neg = false) :
    a.EndsBy b ↔ lastSecond f a ≤ lastSecond f b := by
  have va := nonneg_value na
  have vb := nonneg_value nb
  have e : a.EndsBy b ↔ dayLe a.value a.last.1 a.last.2 b.value b.last.1 b.last.2 := by
    unfold Date0.EndsBy dayLe; rw [va, vb]; omega
  rw [e]
  constructor
  · intro h
    have := day_order hf (Date0.valid_last ha) (Date0.valid_last hb) h
    unfold lastSecond; omega
  · intro h
    by_cases k : dayLe a.value a.last.1 a.last.2 b.value b.last.1 b.last.2
    · exact k
    · have k1 : dayLe b.value b.last.1 b.last.2 a.value a.last.1 a.last.2 := by unfold dayLe at k ⊢; omega
      have k2 := day_order hf (Date0.valid_last hb) (Date0.valid_last ha) k1
      have k3 : f a.value a.last.1 a.last.2 = f b.value b.last.1 b.last.2 := by unfold lastSecond at h; omega
      obtain ⟨e1, e2, e3⟩ := day_unique hf (Date0.valid_last ha) (Date0.valid_last hb) k3
      unfold dayLe; omega

theorem begins_by (hf : DayCount f) {a b : Date0} (ha : a.ok) (hb : b.ok) (na : a.neg = false) (nb : b.neg = false)
    (h : strLe a.text b.text = true) : firstSecond f a ≤ firstSecond f b := by
  have := day_order hf (Date0.valid_first ha) (Date0.valid_first hb) (text_order ha hb na nb h).1
  unfold firstSecond; omega

/-- The text of a date that exists determines when it ends. -/
theorem last_of_text (hf : DayCount f) {a b : Date0} (ha : a.ok) (hb : b.ok) (h : a.text = b.text) : lastSecond f a = lastSecond f b := by
  have h1 := (C55_denotes hf _ _).2 (Denotes.date (f := f) a ha)
  have h2 := (C55_denotes hf _ _).2 (Denotes.date (f := f) b hb)
  rw [h, h2] at h1
  injection h1 with h1
  have k : Honours (a.result f a.text a.text 0 (c! "Date") 0 0) (.second (firstSecond f a) 0 0 0) (.second (lastSecond f a) 0 0 0) :=
    honours_date.2 ⟨rfl, rfl⟩
  rw [h, ← h1, honours_result, is_last] at k
  exact k.2.1

theorem exists_latest (g : Date0 → Int) {l : List Date0} (h : l ≠ []) : ∃ x ∈ l, ∀ y ∈ l, g y ≤ g x := by
  induction l with
  | nil => exact absurd rfl h
  | cons a l ih =>
    by_cases hl : l = []
    · subst hl
      refine ⟨a, List.mem_cons_self, fun y hy => ?_⟩
      rw [List.mem_singleton.1 hy]; exact Int.le_refl _
    · obtain ⟨x, hx, hm⟩ := ih hl
      rcases Int.le_total (g a) (g x) with k | k
      · refine ⟨x, List.mem_cons_of_mem _ hx, fun y hy => ?_⟩
        rcases List.mem_cons.1 hy with rfl | hy
        · exact k
        · exact hm y hy
      · refine ⟨a, List.mem_cons_self, fun y hy => ?_⟩
        rcases List.mem_cons.1 hy with rfl | hy
        · exact Int.le_refl _
        · have := hm y hy; omega

/-! ### Sets -/

theorem set_brackets (all : Bool) : Brackets (openBracket all) (closeBracket all) := by cases all <;> decide
theorem set_flag (all : Bool) : setFlag (openBracket all) = if all then Prec.ALL else Prec.ANY := by cases all <;> rfl

theorem is_opened : Limit.opened.Is openEnd := ⟨rfl, rfl, rfl⟩

theorem is_dawn_flag {t : Int} {u a i j p : Prec} {x : Date0} :
    (Limit.second t u a i).Is { dayStart f x.value x.first.1 x.first.2 0 0 p with inclusivity := j } ↔ t = firstSecond f x ∧ u = 0 ∧ a = 0 ∧ i = j := by
  simp only [Limit.Is, dayStart, dated, Option.some.injEq, true_and, firstSecond]
  constructor
  · rintro ⟨h1, h2, h3, h4⟩
    exact ⟨by omega, h2.symm, h3.symm, h4.symm⟩
  · rintro ⟨h1, h2, h3, h4⟩
    exact ⟨by omega, h2.symm, h3.symm, h4.symm⟩

theorem is_dusk_flag {t : Int} {u a i j p : Prec} {x : Date0} :
    (Limit.second t u a i).Is { dayEnd f x.value x.last.1 x.last.2 0 0 p with inclusivity := j } ↔ t = lastSecond f x ∧ u = 0 ∧ a = 0 ∧ i = j := by
  simp only [Limit.Is, dayEnd, dated, Option.some.injEq, true_and, lastSecond]
  constructor
  · rintro ⟨h1, h2, h3, h4⟩
    exact ⟨by omega, h2.symm, h3.symm, h4.symm⟩
  · rintro ⟨h1, h2, h3, h4⟩
    exact ⟨by omega, h2.symm, h3.symm, h4.symm⟩

theorem verdict_set (hf : DayCount f) {all : Bool} {ps : List Part} (h : (Term.set all ps).ok) : Verdict f (.set all ps) := by
  obtain ⟨hS, hst⟩ := h
  have hok : ∀ x ∈ members ps, x.ok ∧ x.neg = false := by
    intro x hx
    obtain ⟨p, hp, hx⟩ := List.mem_flatMap.1 hx
    exact (hst p hp).1 x hx
  obtain ⟨a, b, d, S, E, lo, up, la, gb, hp, e1, e2, e3, e4, k1, k2, k3, k4, k5⟩ :=
    set_record hf (set_brackets all) hS (fun x hx => (hok x hx).1)
  refine Or.inl ⟨d, hp, trivial, ?_⟩
  have hfirst : ∀ x ∈ members ps, firstSecond f a ≤ firstSecond f x := fun x hx =>
    begins_by hf (hok a la.1).1 (hok x hx).1 (hok a la.1).2 (hok x hx).2 (la.2 x hx)
  -- the greatest text ends last
  have hlast : (∀ x ∈ members ps, lastSecond f x ≤ lastSecond f b) ↔
      ∀ b ∈ members ps, (∀ x ∈ members ps, TextLe x.text b.text) → ∀ x ∈ members ps, x.EndsBy b := by
    constructor
    · intro k b' hb' hg x hx
      have et : b'.text = b.text := textLe_antisymm (textLe_iff.2 (gb.2 b' hb')) (hg b gb.1)
      rw [ends_by hf (hok x hx).1 (hok b' hb').1 (hok x hx).2 (hok b' hb').2, last_of_text hf (hok b' hb').1 (hok b gb.1).1 et]
      exact k x hx
    · intro k x hx
      exact (ends_by hf (hok x hx).1 (hok b gb.1).1 (hok x hx).2 (hok b gb.1).2).1 (k b gb.1 (fun y hy => textLe_iff.2 (gb.2 y hy)) x hx)
  simp only [Term.Honoured, Term.Supported, honours_mk e1 e2 e3 e4]
  rw [← hlast]
  cases so : ps.any Part.isUpTo <;> cases eo : ps.any Part.isOnFrom <;>
    simp only [Bool.false_eq_true, if_false, if_true, false_and, and_false, true_and, or_false, false_or, iff_true, iff_false, and_self,
      reduceCtorEq]
  · rw [k2 so, k5 eo]
    simp only [is_dawn_flag, is_dusk_flag]
    constructor
    · rintro ⟨t1, t2, -, -, hm, -, ht, -⟩ x hx
      rw [← ht]; exact (hm x hx).2
    · intro k
      exact ⟨_, _, ⟨a, la.1, rfl⟩, ⟨b, gb.1, rfl⟩, fun x hx => ⟨hfirst x hx, k x hx⟩, ⟨rfl, trivial, trivial, (set_flag all).symm⟩,
        ⟨rfl, trivial, trivial, (set_flag all).symm⟩⟩
  · rw [k2 so, k3 eo so]
    obtain ⟨x, hx, hm⟩ := exists_latest (lastSecond f) (members_ne_nil hS.1)
    exact ⟨_, _, ⟨a, la.1, rfl⟩, ⟨x, hx, rfl⟩, fun y hy => ⟨hfirst y hy, hm y hy⟩, is_dawn_flag.2 ⟨rfl, rfl, rfl, (set_flag all).symm⟩, is_opened⟩
  · rw [k1 so, k5 eo]
    simp only [is_dusk_flag]
    constructor
    · rintro ⟨t1, t2, -, -, hm, -, ht, -⟩ x hx
      rw [← ht]; exact (hm x hx).2
    · intro k
      exact ⟨_, _, ⟨a, la.1, rfl⟩, ⟨b, gb.1, rfl⟩, fun x hx => ⟨hfirst x hx, k x hx⟩, is_opened, ⟨rfl, trivial, trivial, (set_flag all).symm⟩⟩
  · rintro ⟨t1, t2, -, -, -, -, ht⟩
    have := ht.1
    rw [k4 eo so] at this
    cases this

end EDTF
