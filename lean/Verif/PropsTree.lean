/-
C82: the dates of Level 0 as a tree.
-/
import Verif.SpecTree
import Verif.PropsExact
import Verif.PropsOrder
namespace EDTF
open Spec
variable {f : Int → Nat → Nat → Int}

/-! ### From texts to dates -/

theorem lasts_iff (hf : DayCount f) {s : Str} {l u : Int} : Lasts s l u ↔
    ∃ x : Date0, x.ok ∧ s = x.text ∧ l = 86400 * f x.value x.first.1 x.first.2 ∧ u = 86400 * f x.value x.last.1 x.last.2 + 86399 := by
  constructor
  · rintro ⟨d, h, hd, hl, hu⟩
    have hD := (C55_denotes hf s d).1 h
    have : ∃ x : Date0, x.ok ∧ s = x.text := by
      cases hD <;> first
        | exact ⟨_, ‹_›, rfl⟩
        | (exfalso; revert hd; simp [Date0.result, instantResult, monthsResult]; done)
        | (exfalso; revert hd; dsimp only; split <;> simp; done)
    obtain ⟨x, hx, rfl⟩ := this
    obtain ⟨d', h', -, -, -, h1, h2⟩ := date0_bounds hf hx
    rw [h] at h'; cases h'
    rw [hl] at h1; rw [hu] at h2
    cases h1; cases h2
    exact ⟨x, hx, rfl, rfl, rfl⟩
  · rintro ⟨x, hx, rfl, rfl, rfl⟩
    obtain ⟨d', h', -, hd, -, h1, h2⟩ := date0_bounds hf hx
    exact ⟨d', h', hd, h1, h2⟩

/-! ### Order of days -/

theorem day_le_iff (hf : DayCount f) {y1 y2 : Int} {m1 d1 m2 d2 : Nat} (V1 : Valid y1 m1 d1) (V2 : Valid y2 m2 d2) :
    f y1 m1 d1 ≤ f y2 m2 d2 ↔ dayLe y1 m1 d1 y2 m2 d2 := by
  refine ⟨fun h => ?_, day_order hf V1 V2⟩
  by_cases k : dayLe y1 m1 d1 y2 m2 d2
  · exact k
  · have k' : dayLe y2 m2 d2 y1 m1 d1 := by unfold dayLe at *; omega
    have := day_order hf V2 V1 k'
    obtain ⟨rfl, rfl, rfl⟩ := day_unique hf V1 V2 (by omega)
    exact dayLe_refl _ _ _

/-- The part of the calendar named by `y` lies inside that named by `x`: as many
components as `x` has are the same. -/
def Under (x y : Date0) : Prop :=
  x.value = y.value ∧
  match x.tail with
  | .none => True
  | .month m => y.first.1 = m ∧ y.tail ≠ .none
  | .day m d => y.tail = .day m d

theorem inside_iff (hf : DayCount f) {x y : Date0} (hx : x.ok) (hy : y.ok) :
    (f x.value x.first.1 x.first.2 ≤ f y.value y.first.1 y.first.2 ∧ f y.value y.last.1 y.last.2 ≤ f x.value x.last.1 x.last.2) ↔ Under x y := by
  have a := Date0.valid_first hx
  have b := Date0.valid_last hx
  have c := Date0.valid_first hy
  have d := Date0.valid_last hy
  rw [day_le_iff hf a c, day_le_iff hf d b]
  obtain ⟨n, p, t⟩ := x
  obtain ⟨n', p', t'⟩ := y
  generalize hv : (⟨n, p, t⟩ : Date0).value = v at *
  generalize hv' : (⟨n', p', t'⟩ : Date0).value = v' at *
  have ml := monthLen_le v
  have mp := fun m => monthLen_pos v m
  rcases t with _ | m | ⟨m, d⟩ <;> rcases t' with _ | m' | ⟨m', d'⟩ <;>
    simp only [Date0.first, Date0.last, hv, hv', Under, dayLe, Valid] at * <;> simp <;>
    (by_cases e : v = v'
     · subst e
       first
         | omega
         | (have := mp m; omega)
         | (have := mp m'; omega)
         | (by_cases em : m = m'
            · subst em; have := mp m; omega
            · have := mp m; have := mp m'; omega)
     · omega)

/-- Two dates of which neither lies inside the other have no day in common. -/
theorem apart_iff (hf : DayCount f) {x y : Date0} (hx : x.ok) (hy : y.ok) :
    (f x.value x.last.1 x.last.2 < f y.value y.first.1 y.first.2 ∨ f y.value y.last.1 y.last.2 < f x.value x.first.1 x.first.2) ↔
      ¬ Under x y ∧ ¬ Under y x := by
  have a := Date0.valid_first hx
  have b := Date0.valid_last hx
  have c := Date0.valid_first hy
  have d := Date0.valid_last hy
  rw [← Int.not_le, ← Int.not_le, day_le_iff hf c b, day_le_iff hf a d]
  obtain ⟨n, p, t⟩ := x
  obtain ⟨n', p', t'⟩ := y
  generalize hv : (⟨n, p, t⟩ : Date0).value = v at *
  generalize hv' : (⟨n', p', t'⟩ : Date0).value = v' at *
  have ml := monthLen_le v
  have mp := fun m => monthLen_pos v m
  rcases t with _ | m | ⟨m, d⟩ <;> rcases t' with _ | m' | ⟨m', d'⟩ <;>
    simp only [Date0.first, Date0.last, hv, hv', Under, dayLe, Valid] at * <;> simp <;>
    (by_cases e : v = v'
     · subst e
       first
         | omega
         | (have := mp m; omega)
         | (have := mp m'; omega)
         | (by_cases em : m = m'
            · subst em; have := mp m; omega
            · have := mp m; have := mp m'; omega)
     · omega)

/-! ### Texts -/

/-- What follows the year. -/
def tailText : Tail → Str
  | .none => []
  | .month m => '-' :: pad2 m
  | .day m d => '-' :: (pad2 m ++ '-' :: pad2 d)

theorem dig_dash {a : Nat} (ha : a < 10) : dig a ≠ '-' := by
  intro h
  have := congrArg Char.toNat h
  rw [dig_toNat a ha] at this
  change 48 + a = 45 at this
  omega

theorem pad4_prefix {a b : Nat} (ha : a < 10000) (hb : b < 10000) (s t : Str) : pad4 a ++ s <+: pad4 b ++ t ↔ a = b ∧ s <+: t := by
  unfold pad4
  simp only [List.cons_append, List.nil_append, List.cons_prefix_cons]
  constructor
  · rintro ⟨h1, h2, h3, h4, h⟩
    have := dig_inj (by omega) (by omega) h1
    have := dig_inj (by omega) (by omega) h2
    have := dig_inj (by omega) (by omega) h3
    have := dig_inj (by omega) (by omega) h4
    exact ⟨by omega, h⟩
  · rintro ⟨rfl, h⟩
    exact ⟨rfl, rfl, rfl, rfl, h⟩

theorem pad2_prefix {a b : Nat} (ha : a < 100) (hb : b < 100) (s t : Str) : pad2 a ++ s <+: pad2 b ++ t ↔ a = b ∧ s <+: t := by
  unfold pad2
  simp only [List.cons_append, List.nil_append, List.cons_prefix_cons]
  constructor
  · rintro ⟨h1, h2, h⟩
    have := dig_inj (by omega) (by omega) h1
    have := dig_inj (by omega) (by omega) h2
    exact ⟨by omega, h⟩
  · rintro ⟨rfl, h⟩
    exact ⟨rfl, rfl, h⟩

theorem plainZero_text {x : Date0} (h : x.year < 10000) :
    plainZero x.text = sgn (decide (x.value < 0)) (pad4 x.year) ++ tailText x.tail := by
  obtain ⟨n, y, t⟩ := x
  have e : (⟨n, y, t⟩ : Date0).text = sgn n (pad4 y) ++ tailText t := by
    rw [date0_text]; cases t <;> rfl
  rw [e]
  simp only [Date0.value] at *
  cases n with
  | false =>
    rw [decide_eq_false (by simp)]
    unfold plainZero
    split
    · rename_i heq
      simp only [sgn, Bool.false_eq_true, if_false, pad4, List.cons_append, List.cons.injEq] at heq
      exact absurd heq.1 (dig_dash (by omega))
    · rfl
  | true =>
    by_cases y0 : y = 0
    · subst y0; rfl
    · rw [decide_eq_true (by simp; omega)]
      unfold plainZero
      split
      · rename_i heq
        simp only [sgn, if_true, pad4, List.cons_append, List.cons.injEq] at heq
        obtain ⟨-, h1, h2, h3, h4, -⟩ := heq
        have := dig_inj (b := 0) (by omega) (by omega) h1
        have := dig_inj (b := 0) (by omega) (by omega) h2
        have := dig_inj (b := 0) (by omega) (by omega) h3
        have := dig_inj (b := 0) (by omega) (by omega) h4
        omega
      · rfl

theorem tail_prefix {x y : Date0} (hx : x.ok) (hy : y.ok) (hv : x.value = y.value) :
    tailText x.tail <+: tailText y.tail ↔ Under x y := by
  have lt : ∀ {v : Int} {m d : Nat}, Valid v m d → m < 100 ∧ d < 100 := fun {v m d} h => by
    have := monthLen_le v m
    obtain ⟨_, _, _, _⟩ := h
    omega
  obtain ⟨n, p, t⟩ := x
  obtain ⟨n', p', t'⟩ := y
  have h2 := hx.2
  have k2 := hy.2
  simp only at h2 k2
  simp only [Under, hv, true_and]
  rcases t with _ | m | ⟨m, d⟩ <;> rcases t' with _ | m' | ⟨m', d'⟩ <;> simp only [tailText, Date0.first] at *
  · simp
  · simp
  · simp
  · simp
  · rw [List.cons_prefix_cons, ← List.append_nil (pad2 m), ← List.append_nil (pad2 m'), pad2_prefix (by omega) (by omega)]
    simp [eq_comm]
  · rw [List.cons_prefix_cons, ← List.append_nil (pad2 m), pad2_prefix (by omega) (lt k2).1]
    simp [eq_comm]
  · simp
  · rw [List.cons_prefix_cons, ← List.append_nil (pad2 m'), pad2_prefix (lt h2).1 (by omega)]
    simp
  · rw [List.cons_prefix_cons, pad2_prefix (lt h2).1 (lt k2).1, List.cons_prefix_cons, ← List.append_nil (pad2 d), ← List.append_nil (pad2 d'),
      pad2_prefix (lt h2).2 (lt k2).2]
    simp [eq_comm]

theorem prefix_iff {x y : Date0} (hx : x.ok) (hy : y.ok) : plainZero x.text <+: plainZero y.text ↔ Under x y := by
  rw [plainZero_text hx.1, plainZero_text hy.1]
  have hv : ∀ z : Date0, z.value = if z.value < 0 then -(z.year : Int) else z.year := fun z => by
    unfold Date0.value; split <;> (try split) <;> (try split) <;> omega
  have hX := hv x
  have hY := hv y
  have dt : ∀ {v : Int}, v < 0 → decide (v < 0) = true := decide_eq_true
  have df : ∀ {v : Int}, ¬ v < 0 → decide (v < 0) = false := decide_eq_false
  by_cases h1 : x.value < 0 <;> by_cases h2 : y.value < 0 <;>
    first
      | rw [if_pos h1] at hX; rw [dt h1]
      | rw [if_neg h1] at hX; rw [df h1]
  all_goals first
      | rw [if_pos h2] at hY; rw [dt h2]
      | rw [if_neg h2] at hY; rw [df h2]
  all_goals simp only [sgn, if_true, Bool.false_eq_true, if_false]
  · rw [List.cons_append, List.cons_append, List.cons_prefix_cons, pad4_prefix hx.1 hy.1]
    by_cases e : x.year = y.year
    · simp only [e, true_and]
      exact tail_prefix hx hy (by omega)
    · refine ⟨fun h => absurd h.2.1 e, fun h => ?_⟩
      have := h.1
      omega
  · refine ⟨fun h => ?_, fun h => ?_⟩
    · rw [List.cons_append] at h
      unfold pad4 at h
      simp only [List.cons_append, List.cons_prefix_cons] at h
      exact absurd h.1.symm (dig_dash (by omega))
    · have := h.1
      omega
  · refine ⟨fun h => ?_, fun h => ?_⟩
    · rw [List.cons_append] at h
      unfold pad4 at h
      simp only [List.cons_append, List.cons_prefix_cons] at h
      exact absurd h.1 (dig_dash (by omega))
    · have := h.1
      omega
  · rw [pad4_prefix hx.1 hy.1]
    by_cases e : x.year = y.year
    · simp only [e, true_and]
      exact tail_prefix hx hy (by omega)
    · refine ⟨fun h => absurd h.1 e, fun h => ?_⟩
      have := h.1
      omega

/-! ### C82 -/

/-- C82: the time of one date lies inside that of another exactly if the text of the
other is the beginning of its text. -/
theorem C82_inside {s t : Str} {l u l' u' : Int} (hs : Lasts s l u) (ht : Lasts t l' u') :
    (l ≤ l' ∧ u' ≤ u) ↔ plainZero s <+: plainZero t := by
  obtain ⟨x, hx, rfl, rfl, rfl⟩ := (lasts_iff dayCount_unixDay).1 hs
  obtain ⟨y, hy, rfl, rfl, rfl⟩ := (lasts_iff dayCount_unixDay).1 ht
  rw [prefix_iff hx hy, ← inside_iff dayCount_unixDay hx hy]
  omega

example : ∃ l u l' u', Lasts (c! "-0000-02") l u ∧ Lasts (c! "0000-02-29") l' u' ∧ plainZero (c! "-0000-02") <+: plainZero (c! "0000-02-29") :=
  ⟨_, _, _, _, ⟨_, rfl, rfl, rfl, rfl⟩, ⟨_, rfl, rfl, rfl, rfl⟩, by decide⟩

/-- C82: two dates have an instant in common exactly if the text of one is the beginning
of that of the other. -/
theorem C82_apart {s t : Str} {l u l' u' : Int} (hs : Lasts s l u) (ht : Lasts t l' u') :
    (u < l' ∨ u' < l) ↔ ¬ plainZero s <+: plainZero t ∧ ¬ plainZero t <+: plainZero s := by
  obtain ⟨x, hx, rfl, rfl, rfl⟩ := (lasts_iff dayCount_unixDay).1 hs
  obtain ⟨y, hy, rfl, rfl, rfl⟩ := (lasts_iff dayCount_unixDay).1 ht
  rw [prefix_iff hx hy, prefix_iff hy hx, ← apart_iff dayCount_unixDay hx hy]
  omega

example : ∃ l u l' u', Lasts (c! "1985-04") l u ∧ Lasts (c! "1985-05-01") l' u' ∧ u < l' :=
  ⟨_, _, _, _, ⟨_, rfl, rfl, rfl, rfl⟩, ⟨_, rfl, rfl, rfl, rfl⟩, by decide⟩

/-- C82: two dates have the same time exactly if they are written the same. -/
theorem C82_same {s t : Str} {l u l' u' : Int} (hs : Lasts s l u) (ht : Lasts t l' u') :
    (l = l' ∧ u = u') ↔ plainZero s = plainZero t := by
  have h1 := C82_inside hs ht
  have h2 := C82_inside ht hs
  constructor
  · rintro ⟨rfl, rfl⟩
    exact (h1.1 ⟨Int.le_refl _, Int.le_refl _⟩).eq_of_length_le (h2.1 ⟨Int.le_refl _, Int.le_refl _⟩).length_le
  · intro e
    rw [e] at h1 h2
    have := h1.2 (List.prefix_refl _)
    have := h2.2 (List.prefix_refl _)
    omega

example : ∃ l u, Lasts (c! "-0000-02") l u ∧ Lasts (c! "0000-02") l u ∧ plainZero (c! "-0000-02") = plainZero (c! "0000-02") :=
  ⟨_, _, ⟨_, rfl, rfl, rfl, rfl⟩, ⟨_, rfl, rfl, by decide +kernel, by decide +kernel⟩, by decide⟩

theorem lasts_order {s : Str} {l u : Int} (hs : Lasts s l u) : l < u ∧ 86400 ∣ l ∧ 86400 ∣ u + 1 := by
  obtain ⟨x, hx, rfl, rfl, rfl⟩ := (lasts_iff dayCount_unixDay).1 hs
  have := day_order dayCount_unixDay (Date0.valid_first hx) (Date0.valid_last hx) (first_le_last hx)
  omega

/-- C82: of two dates one is before the other, or after it, or the text of one is the
beginning of that of the other; the comparisons tell which. -/
theorem C82_compare {s t : Str} {l u l' u' : Int} (hs : Lasts s l u) (ht : Lasts t l' u') :
    isBefore s t = .ok (decide (u < l')) ∧ isAfter s t = .ok (decide (u' < l)) ∧
    ((isBefore s t = .ok false ∧ isAfter s t = .ok false) ↔ (plainZero s <+: plainZero t ∨ plainZero t <+: plainZero s)) := by
  obtain ⟨a1, a2, a3⟩ := lasts_order hs
  obtain ⟨b1, b2, b3⟩ := lasts_order ht
  have ap := C82_apart hs ht
  obtain ⟨x, px, -, xl, xu⟩ := hs
  obtain ⟨y, py, -, yl, yu⟩ := ht
  obtain ⟨h1, h2⟩ := C34_strings px py ⟨xl, xu⟩ ⟨yl, yu⟩
  have e1 : (u ≤ l') ↔ (u < l') := by omega
  have e2 : (u' ≤ l) ↔ (u' < l) := by omega
  rw [h1, h2]
  simp only [e1, e2]
  refine ⟨trivial, trivial, ?_⟩
  simp only [Res.ok.injEq, decide_eq_false_iff_not]
  by_cases k : plainZero s <+: plainZero t
  · simp only [k, true_or, iff_true]
    have := mt ap.1 (fun h => h.1 k)
    omega
  · by_cases k' : plainZero t <+: plainZero s
    · simp only [k', or_true, iff_true]
      have := mt ap.1 (fun h => h.2 k')
      omega
    · simp only [k, k', or_self, iff_false]
      have := ap.2 ⟨k, k'⟩
      omega

example : ∃ l u l' u', Lasts (c! "1985-04") l u ∧ Lasts (c! "1985") l' u' ∧ isBefore (c! "1985-04") (c! "1985") = .ok false ∧ isAfter (c! "1985-04") (c! "1985") = .ok false :=
  ⟨_, _, _, _, ⟨_, rfl, rfl, rfl, rfl⟩, ⟨_, rfl, rfl, rfl, rfl⟩, by decide +kernel, by decide +kernel⟩

/-! ### Written order -/

theorem strLe_iff (s t : Str) : strLe s t = true ↔ ¬ t < s := by
  induction s generalizing t with
  | nil => simp [strLe]
  | cons a s ih =>
    cases t with
    | nil => simp [strLe]
    | cons b t =>
      have hc : ∀ {a b : Char}, a < b ↔ a.toNat < b.toNat := fun {a b} => Iff.rfl
      rw [List.cons_lt_cons_iff, hc, show strLe (a :: s) (b :: t) = if a.toNat < b.toNat then true
        else if b.toNat < a.toNat then false else strLe s t from rfl]
      by_cases h1 : a.toNat < b.toNat
      · rw [if_pos h1]
        simp only [true_iff]
        rintro (h | ⟨rfl, -⟩) <;> omega
      · rw [if_neg h1]
        by_cases h2 : b.toNat < a.toNat
        · rw [if_pos h2]
          simp [h2]
        · rw [if_neg h2, ih]
          have : b = a := Char.toNat_inj.1 (by omega)
          simp [this]

theorem append_not_lt (s r : Str) : ¬ s ++ r < s := by
  induction s with
  | nil => simp
  | cons a s ih =>
    rw [List.cons_append, List.cons_lt_cons_iff]
    rintro (h | ⟨-, h⟩)
    · exact Nat.lt_irrefl a.toNat h
    · exact ih h

theorem not_dash {x : Date0} (h : x.text.head? ≠ some '-') : x.neg = false := by
  rw [date0_text] at h
  obtain ⟨n, y, t⟩ := x
  cases n with
  | false => rfl
  | true => simp [yearStr, sgn] at h

theorem plainZero_not_dash {s : Str} (h : s.head? ≠ some '-') : plainZero s = s := by
  unfold plainZero
  split
  · simp at h
  · rfl

/-- C82: for dates from year 0 on, the one that is first in the order of texts, and not
the beginning of the other, is over before the other begins. -/
theorem C82_order {s t : Str} {l u l' u' : Int} (hs : Lasts s l u) (ht : Lasts t l' u') (ns : s.head? ≠ some '-') (nt : t.head? ≠ some '-') :
    u < l' ↔ s < t ∧ ¬ s <+: t := by
  have key : ∀ {s t : Str} {l u l' u' : Int}, Lasts s l u → Lasts t l' u' → s.head? ≠ some '-' → t.head? ≠ some '-' →
      s < t → ¬ s <+: t → u < l' := by
    intro s t l u l' u' hs ht ns nt h k
    have ap := C82_apart hs ht
    rw [plainZero_not_dash ns, plainZero_not_dash nt] at ap
    have lt := lasts_order ht
    obtain ⟨x, hx, rfl, rfl, rfl⟩ := (lasts_iff dayCount_unixDay).1 hs
    obtain ⟨y, hy, rfl, rfl, rfl⟩ := (lasts_iff dayCount_unixDay).1 ht
    have h1 := text_order hx hy (not_dash ns) (not_dash nt) ((strLe_iff _ _).2 (List.lt_asymm h))
    have h2 := day_order dayCount_unixDay (Date0.valid_first hx) (Date0.valid_first hy) h1.1
    have h3 : ¬ y.text <+: x.text := fun hp => by
      obtain ⟨r, hr⟩ := hp
      rw [← hr] at h
      exact append_not_lt _ _ h
    have := ap.2 ⟨k, h3⟩
    omega
  refine ⟨fun h => ?_, fun h => key hs ht ns nt h.1 h.2⟩
  have ap := (C82_apart hs ht).1 (.inl h)
  rw [plainZero_not_dash ns, plainZero_not_dash nt] at ap
  refine ⟨?_, ap.1⟩
  rcases Decidable.em (s < t) with k | k
  · exact k
  · exfalso
    have hlt : t < s := by
      rcases Decidable.em (t < s) with k' | k'
      · exact k'
      · exact absurd (show s <+: t from (List.le_antisymm k k') ▸ List.prefix_refl _) ap.1
    have a := lasts_order hs
    have b := lasts_order ht
    have := key ht hs nt ns hlt ap.2
    omega

example : c! "1985-04-30" < c! "1985-05" ∧ ¬ c! "1985-04-30" <+: c! "1985-05" := by decide

theorem dash_neg {x : Date0} (h : x.text.head? = some '-') : x.neg = true := by
  rw [date0_text] at h
  obtain ⟨n, y, t⟩ := x
  cases n with
  | true => rfl
  | false =>
    simp only [yearStr, sgn, Bool.false_eq_true, if_false, pad4, List.cons_append, List.head?_cons, Option.some.injEq] at h
    exact absurd h (dig_dash (by omega))

/-- C82: for dates before year 0 (and in "-0000") of different years it is the other way
round: the one that is first in the order of texts is the later one. -/
theorem C82_order_negative {s t : Str} {l u l' u' : Int} (hs : Lasts s l u) (ht : Lasts t l' u') (ns : s.head? = some '-') (nt : t.head? = some '-')
    (hy : s.take 5 ≠ t.take 5) : u < l' ↔ t < s := by
  obtain ⟨x, hx, rfl, rfl, rfl⟩ := (lasts_iff dayCount_unixDay).1 hs
  obtain ⟨y, hy', rfl, rfl, rfl⟩ := (lasts_iff dayCount_unixDay).1 ht
  have h1 := dash_neg ns
  have h2 := dash_neg nt
  have vx : x.value = -(x.year : Int) := by unfold Date0.value; rw [if_pos h1]
  have vy : y.value = -(y.year : Int) := by unfold Date0.value; rw [if_pos h2]
  have tx := date0_text x
  have ty := date0_text y
  simp only [h1, h2, yearStr, sgn, if_true, List.cons_append] at tx ty
  have ne : x.year ≠ y.year := fun e => hy (by rw [tx, ty, e]; rfl)
  have ord : y.text < x.text ↔ y.year < x.year := by
    rw [← Decidable.not_iff_not, ← strLe_iff, tx, ty, strLe_dash, strLe_pad4 hx.1 hy'.1]
    omega
  rw [ord]
  have v := Date0.valid_last hx
  have v' := Date0.valid_first hy'
  have w := Date0.valid_first hx
  have w' := Date0.valid_last hy'
  constructor
  · intro h
    rcases Nat.lt_or_ge y.year x.year with k | k
    · exact k
    · have := day_lt dayCount_unixDay v' v (.inl (by omega))
      omega
  · intro h
    have := day_lt dayCount_unixDay v v' (.inl (by omega))
    omega

example : c! "-0044-03-15" < c! "-0100" ∧ (c! "-0044-03-15").take 5 ≠ (c! "-0100").take 5 := by decide

/-! ### Every instant -/

theorem count_dig {n : Nat} (h : n < 10) (s : Str) : (dig n :: s).count '-' = s.count '-' := by
  rw [List.count_cons_of_ne (dig_dash h)]

theorem components_text {x : Date0} : components x.text = match x.tail with | .none => 1 | .month _ => 2 | .day _ _ => 3 := by
  obtain ⟨n, y, t⟩ := x
  have p2 : ∀ m s, (pad2 m ++ s).count '-' = s.count '-' := fun m s => by
    unfold pad2
    rw [List.cons_append, List.cons_append, count_dig (by omega), count_dig (by omega), List.nil_append]
  have p2' : ∀ m, (pad2 m).count '-' = 0 := fun m => by
    have := p2 m []
    rwa [List.append_nil] at this
  have e : (⟨n, y, t⟩ : Date0).text.tail.count '-' = (tailText t).count '-' := by
    have : (⟨n, y, t⟩ : Date0).text = sgn n (pad4 y) ++ tailText t := by
      rw [date0_text]; cases t <;> rfl
    rw [this]
    unfold sgn pad4
    cases n
    · simp only [Bool.false_eq_true, if_false, List.cons_append, List.tail_cons, List.nil_append]
      rw [count_dig (by omega), count_dig (by omega), count_dig (by omega)]
    · simp only [if_true, List.cons_append, List.tail_cons, List.nil_append]
      rw [count_dig (by omega), count_dig (by omega), count_dig (by omega), count_dig (by omega)]
  unfold components
  rw [e]
  cases t with
  | none => rfl
  | month m => simp only [tailText, List.count_cons_self, p2']
  | day m d => simp only [tailText, List.count_cons_self, p2, p2']

/-- Two dates with equally many components that have an instant in common are the
same. -/
theorem same_of_meet {s t : Str} {l u l' u' i : Int} (hs : Lasts s l u) (ht : Lasts t l' u') (hc : components s = components t)
    (h1 : l ≤ i) (h2 : i ≤ u) (h3 : l' ≤ i) (h4 : i ≤ u') : plainZero s = plainZero t := by
  have ap := mt (C82_apart hs ht).2 (by omega)
  obtain ⟨x, hx, rfl, -, -⟩ := (lasts_iff dayCount_unixDay).1 hs
  obtain ⟨y, hy, rfl, -, -⟩ := (lasts_iff dayCount_unixDay).1 ht
  rw [components_text, components_text] at hc
  rw [prefix_iff hx hy, prefix_iff hy hx] at ap
  have sym : Under x y ↔ Under y x := by
    obtain ⟨n, p, t⟩ := x
    obtain ⟨n', p', t'⟩ := y
    rcases t with _ | m | ⟨m, d⟩ <;> rcases t' with _ | m' | ⟨m', d'⟩ <;> simp only [Under, Date0.first] at * <;>
      simp [eq_comm] at * 
  have a : Under x y := by
    by_cases h : Under x y
    · exact h
    · exact absurd ⟨h, fun k => h (sym.2 k)⟩ ap
  exact ((prefix_iff hx hy).2 a).eq_of_length_le ((prefix_iff hy hx).2 (sym.1 a)).length_le

/-- The first instant of year -9999 and the last of year 9999. -/
theorem C82_range (hf : DayCount f) {s : Str} {l u : Int} (hs : Lasts s l u) :
    86400 * f (-9999) 1 1 ≤ l ∧ u < 86400 * f 10000 1 1 := by
  obtain ⟨x, hx, rfl, rfl, rfl⟩ := (lasts_iff hf).1 hs
  have hv : -9999 ≤ x.value ∧ x.value ≤ 9999 := by
    have := hx.1
    unfold Date0.value
    split <;> omega
  have V1 := Date0.valid_first hx
  have V2 := Date0.valid_last hx
  have a := day_order hf (show Valid (-9999) 1 1 by decide) V1 (by
    obtain ⟨_, _, _, _⟩ := V1
    unfold dayLe; omega)
  have b := day_lt hf V2 (show Valid 10000 1 1 by decide) (.inl (by omega))
  omega

example : Lasts (c! "-9999-01-01") (86400 * U (-9999) 1 1) (86400 * U (-9999) 1 1 + 86399) := ⟨_, rfl, rfl, by decide +kernel, by decide +kernel⟩

/-- C82: every instant of the years -9999 to 9999 is in exactly one year, one month and
one day as written (but for the sign of year zero). -/
theorem C82_tiles (hf : DayCount f) {i : Int} (h1 : 86400 * f (-9999) 1 1 ≤ i) (h2 : i < 86400 * f 10000 1 1) {k : Nat} (k1 : 1 ≤ k) (k3 : k ≤ 3) :
    ∃ s l u, Lasts s l u ∧ components s = k ∧ l ≤ i ∧ i ≤ u ∧
      ∀ s' l' u', Lasts s' l' u' → components s' = k → l' ≤ i → i ≤ u' → plainZero s' = plainZero s := by
  obtain ⟨y, m, d, V, hz⟩ := exists_date (i / 86400)
  have hz' : i / 86400 = f y m d := by rw [hz]; exact (dayCount_eq hf V).symm
  have y1 : -9999 ≤ y := by
    have := (day_le_iff hf (show Valid (-9999) 1 1 by decide) V).1 (by omega)
    unfold dayLe at this; omega
  have y2 : y ≤ 9999 := by
    rcases Int.lt_or_le 9999 y with h | h
    · have := day_order hf (show Valid 10000 1 1 by decide) V (by
        obtain ⟨_, _, _, _⟩ := V
        unfold dayLe; omega)
      omega
    · exact h
  have hval : ∀ t, (⟨decide (y < 0), y.natAbs, t⟩ : Date0).value = y := fun t => by
    unfold Date0.value
    by_cases h : y < 0
    · simp only [h, decide_true, if_true]; omega
    · simp only [h, decide_false, Bool.false_eq_true, if_false]; omega
  obtain ⟨m1, m2, d1, d2⟩ := V
  have main : ∃ x : Date0, x.ok ∧ components x.text = k ∧ f x.value x.first.1 x.first.2 ≤ f y m d ∧ f y m d ≤ f x.value x.last.1 x.last.2 := by
    have ys : y.natAbs < 10000 := by omega
    rcases (show k = 1 ∨ k = 2 ∨ k = 3 by omega) with rfl | rfl | rfl
    · have ok : (⟨decide (y < 0), y.natAbs, .none⟩ : Date0).ok := ⟨ys, trivial⟩
      refine ⟨_, ok, components_text, ?_, ?_⟩
      · refine day_order hf (Date0.valid_first ok) ⟨m1, m2, d1, d2⟩ ?_
        rw [hval]; exact .inr ⟨rfl, show 1 < m ∨ (1 = m ∧ 1 ≤ d) by omega⟩
      · refine day_order hf ⟨m1, m2, d1, d2⟩ (Date0.valid_last ok) ?_
        have := monthLen_le y m
        rw [hval]; exact .inr ⟨rfl, show m < 12 ∨ (m = 12 ∧ d ≤ 31) by omega⟩
    · have ok : (⟨decide (y < 0), y.natAbs, .month m⟩ : Date0).ok := ⟨ys, m1, m2⟩
      refine ⟨_, ok, components_text, ?_, ?_⟩
      · refine day_order hf (Date0.valid_first ok) ⟨m1, m2, d1, d2⟩ ?_
        rw [hval]; exact .inr ⟨rfl, show m < m ∨ (m = m ∧ 1 ≤ d) by omega⟩
      · refine day_order hf ⟨m1, m2, d1, d2⟩ (Date0.valid_last ok) ?_
        exact .inr ⟨(hval _).symm, .inr ⟨rfl, show d ≤ monthLen (⟨decide (y < 0), y.natAbs, .month m⟩ : Date0).value m by rw [hval]; exact d2⟩⟩
    · have ok : (⟨decide (y < 0), y.natAbs, .day m d⟩ : Date0).ok :=
        ⟨ys, show Valid (⟨decide (y < 0), y.natAbs, .day m d⟩ : Date0).value m d by rw [hval]; exact ⟨m1, m2, d1, d2⟩⟩
      refine ⟨_, ok, components_text, ?_, ?_⟩
      · rw [hval]; exact Int.le_refl _
      · rw [hval]; exact Int.le_refl _
  obtain ⟨x, hx, hc, a, b⟩ := main
  have hL := (lasts_iff hf).2 ⟨x, hx, rfl, rfl, rfl⟩
  refine ⟨_, _, _, hL, hc, by omega, by omega, fun s' l' u' h' c' a' b' => ?_⟩
  exact same_of_meet h' hL (by rw [c', hc]) a' b' (by omega) (by omega)

example : Lasts (c! "1969-12") (86400 * U 1969 12 1) (-1) ∧ components (c! "1969-12") = 2 := ⟨⟨_, rfl, rfl, by decide +kernel, by decide +kernel⟩, by decide⟩

/-- C82: the time of a date is exactly that of the finer dates whose text begins with
its text. -/
theorem C82_parts (hf : DayCount f) {s : Str} {l u : Int} (hs : Lasts s l u) {k : Nat} (k1 : components s ≤ k) (k3 : k ≤ 3) (i : Int) :
    (l ≤ i ∧ i ≤ u) ↔ ∃ t l' u', Lasts t l' u' ∧ components t = k ∧ plainZero s <+: plainZero t ∧ l' ≤ i ∧ i ≤ u' := by
  constructor
  · rintro ⟨h1, h2⟩
    have r := C82_range hf hs
    obtain ⟨t, l', u', ht, hc, a, b, -⟩ := C82_tiles hf (i := i) (by omega) (by omega) (k := k) (by unfold components at k1; omega) k3
    refine ⟨t, l', u', ht, hc, ?_, a, b⟩
    have ap := mt (C82_apart hs ht).2 (by omega)
    by_cases hp : plainZero s <+: plainZero t
    · exact hp
    · have hq : plainZero t <+: plainZero s := by
        by_cases hq : plainZero t <+: plainZero s
        · exact hq
        · exact absurd ⟨hp, hq⟩ ap
      have ec : components s = components t := by
        obtain ⟨x, hx, rfl, -, -⟩ := (lasts_iff dayCount_unixDay).1 hs
        obtain ⟨y, hy, rfl, -, -⟩ := (lasts_iff dayCount_unixDay).1 ht
        rw [prefix_iff hy hx] at hq
        rw [← hc] at k1
        rw [components_text, components_text] at *
        obtain ⟨n, p, t⟩ := x
        obtain ⟨n', p', t'⟩ := y
        rcases t with _ | m | ⟨m, d⟩ <;> rcases t' with _ | m' | ⟨m', d'⟩ <;> simp [Under] at *
      rw [same_of_meet hs ht ec h1 h2 a b]
      exact List.prefix_refl _
  · rintro ⟨t, l', u', ht, -, hp, a, b⟩
    have := (C82_inside hs ht).2 hp
    omega

example : ∃ l u l' u', Lasts (c! "1984-02") l u ∧ Lasts (c! "1984-02-29") l' u' ∧ components (c! "1984-02") ≤ 3 ∧ components (c! "1984-02-29") = 3 ∧ u' = u :=
  ⟨_, _, _, _, ⟨_, rfl, rfl, rfl, rfl⟩, ⟨_, rfl, rfl, rfl, rfl⟩, by decide, by decide, by decide +kernel⟩

/-- C82: the next date with equally many components begins with the next second. -/
theorem C82_next (hf : DayCount f) {s : Str} {l u : Int} (hs : Lasts s l u) (h : u + 1 < 86400 * f 10000 1 1) :
    ∃ t u', Lasts t (u + 1) u' ∧ components t = components s := by
  have r := C82_range hf hs
  have o := lasts_order hs
  have kc : 1 ≤ components s ∧ components s ≤ 3 := by
    obtain ⟨x, hx, rfl, -, -⟩ := (lasts_iff dayCount_unixDay).1 hs
    rw [components_text]
    split <;> omega
  obtain ⟨t, l', u', ht, hc, a, b, -⟩ := C82_tiles hf (i := u + 1) (by omega) (by omega) kc.1 kc.2
  rcases Int.lt_or_le l' (u + 1) with hl | hl
  · have e := same_of_meet (i := max l l') hs ht hc.symm (by omega) (by omega) (by omega) (by omega)
    have := (C82_same hs ht).2 e
    omega
  · rw [show l' = u + 1 by omega] at ht
    exact ⟨t, u', ht, hc⟩

example : components (c! "-0044-03-15") = 3 ∧ components (c! "-0044") = 1 ∧ components (c! "1985-04") = 2 := by decide

/-- The last second of the year before year 0, and the first of year 0. -/
example : ∃ l u, Lasts (c! "-0001-12") l (-62167219201) ∧ Lasts (c! "0000-01") (-62167219200) u :=
  ⟨_, _, ⟨_, rfl, rfl, rfl, rfl⟩, ⟨_, rfl, rfl, rfl, rfl⟩⟩

end EDTF
