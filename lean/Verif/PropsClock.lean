/-
C94: the seconds that can be written.
-/
import Verif.SpecClock
import Verif.PropsTree
namespace EDTF
open Spec
variable {f : Int → Nat → Nat → Int}

/-! ### From texts to seconds -/

theorem at_text (hf : DayCount f) {s : Str} {i : Int} (h : At s i) :
    ∃ (neg : Bool) (y m d hh mi ss : Nat) (z : Zone), y < 10000 ∧ Valid y m d ∧ hh < 24 ∧ mi < 60 ∧ ss < 60 ∧ z.ok ∧
      s = clockText neg y m d hh mi ss z := by
  obtain ⟨d, h, hd, -, -⟩ := h
  have hD := (C55_denotes hf s d).1 h
  cases hD <;> first
    | exact ⟨_, _, _, _, _, _, _, _, ‹_›, ‹_›, ‹_›, ‹_›, ‹_›, ‹_›, rfl⟩
    | (exfalso; revert hd; simp [Date0.result, instantResult, monthsResult]; done)
    | (exfalso; revert hd; dsimp only; split <;> simp; done)

/-- What the text of a zone without an offset stands for. -/
theorem at_value (hf : DayCount f) {neg : Bool} {y m d hh mi ss : Nat} {z : Zone} (hy : y < 10000) (V : Valid y m d)
    (k1 : hh < 24) (k2 : mi < 60) (k3 : ss < 60) (hz : z = .none ∨ z = .utc) (i : Int) :
    At (clockText neg y m d hh mi ss z) i ↔ i = 86400 * f (if neg then -(y : Int) else y) m d + (3600 * hh + 60 * mi + ss) := by
  have ok : z.ok := by rcases hz with rfl | rfl <;> trivial
  have zero : z.offset = 0 := by rcases hz with rfl | rfl <;> rfl
  have key : ∃ r : EDTFDate, parseString (clockText neg y m d hh mi ss z) = .ok r ∧ r.feature = c! "Date and Time" ∧
      r.lower = .ok (86400 * f (if neg then -(y : Int) else y) m d + (3600 * hh + 60 * mi + ss)) ∧
      r.upper = .ok (86400 * f (if neg then -(y : Int) else y) m d + (3600 * hh + 60 * mi + ss)) := by
    cases neg with
    | false =>
      obtain ⟨_, _, _, _, _, _, r, h, e, -, -, -, -, -, h1, h2⟩ := C06_instant hf hy V k1 k2 k3 ok
      rw [zero, Int.sub_zero] at h1 h2
      exact ⟨r, h, by rw [e]; rfl, h1, h2⟩
    | true =>
      obtain ⟨r, h, e, h1, h2⟩ := C07_utc_partial hf hy (valid_neg.2 V) k1 k2 k3 hz
      exact ⟨r, h, by rw [e]; rfl, h1, h2⟩
  obtain ⟨r, h, e, h1, h2⟩ := key
  constructor
  · rintro ⟨r', h', -, l, -⟩
    rw [h] at h'; cases h'
    rw [h1] at l; cases l; rfl
  · rintro rfl
    exact ⟨r, h, e, h1, h2⟩

/-- The text: a day, the letter, the time of day, and the zone. -/
theorem clock_split (neg : Bool) (y m d hh mi ss : Nat) (z : Zone) :
    clockText neg y m d hh mi ss z = (⟨neg, y, .day m d⟩ : Date0).text ++ 'T' :: (hmsText hh mi ss ++ z.text) := by
  rw [date0_text]
  unfold clockText yearStr sgn
  cases neg <;> simp

theorem pad2_last (n : Nat) (s : Str) : (s ++ pad2 n).getLast? ≠ some 'Z' := by
  unfold pad2
  rw [show s ++ [dig (n / 10 % 10), dig (n % 10)] = (s ++ [dig (n / 10 % 10)]) ++ [dig (n % 10)] by simp, List.getLast?_concat]
  intro h
  exact dig_mod_ne n (by decide) (Option.some.inj h)

theorem clock_zulu {neg : Bool} {y m d hh mi ss : Nat} {z : Zone} : Zulu (clockText neg y m d hh mi ss z) ↔ z = .utc := by
  unfold Zulu clockText hmsText
  constructor
  · intro h
    cases z with
    | utc => rfl
    | none =>
      simp only [Zone.text, List.append_nil, ← List.append_assoc] at h
      exact absurd h (pad2_last _ _)
    | hours n a =>
      simp only [Zone.text] at h
      rw [show ∀ (p q : Str) (c : Char), p ++ (q ++ c :: pad2 a) = (p ++ q ++ [c]) ++ pad2 a by intros; simp] at h
      exact absurd h (pad2_last _ _)
    | full n a b =>
      simp only [Zone.text] at h
      rw [show ∀ (p q r : Str) (c e : Char), p ++ (q ++ c :: (r ++ e :: pad2 b)) = (p ++ q ++ c :: (r ++ [e])) ++ pad2 b by intros; simp] at h
      exact absurd h (pad2_last _ _)
  · rintro rfl
    simp only [Zone.text, ← List.append_assoc]
    exact List.getLast?_concat

theorem valid_value {neg : Bool} {y m d : Nat} : Valid (⟨neg, y, .day m d⟩ : Date0).value m d ↔ Valid y m d := by
  unfold Date0.value
  cases neg
  · exact Iff.rfl
  · exact valid_neg

/-- The texts in universal time. -/
theorem zulu_iff (hf : DayCount f) {s : Str} {i : Int} : (At s i ∧ Zulu s) ↔
    ∃ (neg : Bool) (y m d hh mi ss : Nat), (⟨neg, y, .day m d⟩ : Date0).ok ∧ hh < 24 ∧ mi < 60 ∧ ss < 60 ∧
      s = (⟨neg, y, .day m d⟩ : Date0).text ++ 'T' :: (hmsText hh mi ss ++ c! "Z") ∧
      i = 86400 * f (⟨neg, y, .day m d⟩ : Date0).value m d + (3600 * hh + 60 * mi + ss) := by
  constructor
  · rintro ⟨h, hz⟩
    obtain ⟨neg, y, m, d, hh, mi, ss, z, hy, V, k1, k2, k3, -, rfl⟩ := at_text hf h
    obtain rfl := clock_zulu.1 hz
    exact ⟨neg, y, m, d, hh, mi, ss, ⟨hy, valid_value.2 V⟩, k1, k2, k3, clock_split _ _ _ _ _ _ _ _, (at_value hf hy V k1 k2 k3 (.inr rfl) i).1 h⟩
  · rintro ⟨neg, y, m, d, hh, mi, ss, ⟨hy, V⟩, k1, k2, k3, rfl, rfl⟩
    have V' : Valid y m d := valid_value.1 V
    have e := clock_split neg y m d hh mi ss .utc
    simp only [Zone.text] at e
    rw [← e]
    exact ⟨(at_value hf hy V' k1 k2 k3 (.inr rfl) _).2 rfl, clock_zulu.2 rfl⟩

theorem plainZero_append {s : Str} (h : 5 ≤ s.length) (r : Str) : plainZero (s ++ r) = plainZero s ++ r := by
  match s, h with
  | a :: b :: c :: d :: e :: s, _ =>
    by_cases k : a = '-' ∧ b = '0' ∧ c = '0' ∧ d = '0' ∧ e = '0'
    · obtain ⟨rfl, rfl, rfl, rfl, rfl⟩ := k
      rfl
    · have : ∀ t : Str, plainZero (a :: b :: c :: d :: e :: t) = a :: b :: c :: d :: e :: t := by
        intro t
        unfold plainZero
        split
        · rename_i he
          simp only [List.cons.injEq] at he
          exact absurd ⟨he.1, he.2.1, he.2.2.1, he.2.2.2.1, he.2.2.2.2.1⟩ k
        · rfl
      rw [this]
      exact this _

theorem day_text_length {neg : Bool} {y m d : Nat} : (⟨neg, y, .day m d⟩ : Date0).text.length = if neg then 11 else 10 := by
  rw [date0_text]
  cases neg <;> rfl

theorem prefix_before {w a r : Str} {c : Char} (hc : c ∉ w) : w <+: a ++ c :: r ↔ w <+: a := by
  induction w generalizing a with
  | nil => simp
  | cons x w ih =>
    have hx : x ≠ c := fun e => hc (by rw [e]; exact .head _)
    cases a with
    | nil => simp [List.cons_prefix_cons, hx]
    | cons b a =>
      rw [List.cons_append, List.cons_prefix_cons, List.cons_prefix_cons, ih (fun h => hc (.tail _ h))]

theorem plainZero_no_T {x : Date0} (h : x.year < 10000) : 'T' ∉ plainZero x.text := by
  have k : 'T' ∉ x.text := date0_not_mem x (c := 'T') (by decide) (by decide)
  intro hm
  apply k
  revert hm
  unfold plainZero
  split
  · rename_i e
    rw [e]
    intro hm
    exact .tail _ hm
  · exact id

/-- C94: a second written in universal time is within a written date exactly if the text
of the date is the beginning of its text. -/
theorem C94_inside {s w : Str} {i l u : Int} (hs : At s i) (hz : Zulu s) (hw : Lasts w l u) :
    (l ≤ i ∧ i ≤ u) ↔ plainZero w <+: plainZero s := by
  obtain ⟨neg, y, m, d, hh, mi, ss, ok, k1, k2, k3, rfl, rfl⟩ := (zulu_iff dayCount_unixDay).1 ⟨hs, hz⟩
  have hL := (lasts_iff dayCount_unixDay).2 ⟨_, ok, rfl, rfl, rfl⟩
  have hi := C82_inside hw hL
  obtain ⟨-, o2, o3⟩ := lasts_order hw
  rw [plainZero_append (by rw [day_text_length]; split <;> omega)]
  obtain ⟨x, hx, rfl, -, -⟩ := (lasts_iff dayCount_unixDay).1 hw
  rw [prefix_before (plainZero_no_T hx.1), ← hi]
  simp only [Date0.first, Date0.last] at *
  omega

example : ∃ i l u, At (c! "-0000-02-29T23:59:59Z") i ∧ Zulu (c! "-0000-02-29T23:59:59Z") ∧ Lasts (c! "0000-02") l u ∧
    plainZero (c! "0000-02") <+: plainZero (c! "-0000-02-29T23:59:59Z") :=
  ⟨_, _, _, ⟨_, rfl, rfl, rfl, rfl⟩, by unfold Zulu; decide, ⟨_, rfl, rfl, rfl, rfl⟩, by decide⟩

/-- C94: every second of the years -9999 to 9999 has exactly one text in universal time,
a sign before the year 0000 aside. -/
theorem C94_every (hf : DayCount f) {i : Int} (h1 : 86400 * f (-9999) 1 1 ≤ i) (h2 : i < 86400 * f 10000 1 1) :
    ∃ s, At s i ∧ Zulu s ∧ ∀ s', At s' i → Zulu s' → plainZero s' = plainZero s := by
  obtain ⟨w, l, u, hw, hc, a, b, -⟩ := C82_tiles hf h1 h2 (k := 3) (by omega) (by omega)
  obtain ⟨x, hx, rfl, rfl, rfl⟩ := (lasts_iff hf).1 hw
  rw [components_text] at hc
  obtain ⟨neg, y, t⟩ := x
  cases t with
  | none => simp at hc
  | month m => simp at hc
  | day m d =>
    simp only [Date0.first, Date0.last] at a b
    obtain ⟨hh, mi, ss, k1, k2, k3, e⟩ := exists_hms (r := i - 86400 * f (⟨neg, y, .day m d⟩ : Date0).value m d) (by omega) (by omega)
    unfold secOf at e
    have hA := (zulu_iff hf).2 ⟨neg, y, m, d, hh, mi, ss, hx, k1, k2, k3, rfl, rfl⟩
    have ei : i = 86400 * f (⟨neg, y, .day m d⟩ : Date0).value m d + (3600 * hh + 60 * mi + ss) := by omega
    rw [← ei] at hA
    refine ⟨_, hA.1, hA.2, fun s' h' z' => ?_⟩
    obtain ⟨neg', y', m', d', hh', mi', ss', ok', k1', k2', k3', rfl, e'⟩ := (zulu_iff hf).1 ⟨h', z'⟩
    have hL := (lasts_iff hf).2 ⟨_, ok', rfl, rfl, rfl⟩
    have ep := same_of_meet hL hw (by rw [components_text, components_text]) (i := i)
      (by simp only [Date0.first]; omega) (by simp only [Date0.last]; omega) (by simp only [Date0.first]; omega) (by simp only [Date0.last]; omega)
    obtain ⟨g1, g2⟩ := (C82_same hL hw).2 ep
    simp only [Date0.first] at g1
    have : hh = hh' ∧ mi = mi' ∧ ss = ss' := by omega
    obtain ⟨rfl, rfl, rfl⟩ := this
    rw [plainZero_append (by rw [day_text_length]; split <;> omega), plainZero_append (by rw [day_text_length]; split <;> omega), ep]

example : 86400 * U (-9999) 1 1 ≤ 86400 * U (-2) 12 31 + 3661 ∧ 86400 * U (-2) 12 31 + 3661 < 86400 * U 10000 1 1 ∧ ∃ s, At s (86400 * U (-2) 12 31 + 3661) :=
  ⟨by decide +kernel, by decide +kernel, c! "-0002-12-31T01:01:01Z", _, rfl, rfl, by decide +kernel, by decide +kernel⟩

/-- C94: no other second can be written in universal time. -/
theorem C94_range (hf : DayCount f) {s : Str} {i : Int} (hs : At s i) (hz : Zulu s) :
    86400 * f (-9999) 1 1 ≤ i ∧ i < 86400 * f 10000 1 1 := by
  obtain ⟨neg, y, m, d, hh, mi, ss, ok, k1, k2, k3, rfl, rfl⟩ := (zulu_iff hf).1 ⟨hs, hz⟩
  have := C82_range hf ((lasts_iff hf).2 ⟨_, ok, rfl, rfl, rfl⟩)
  simp only [Date0.first, Date0.last] at this
  omega

/-- With an offset one can go beyond. -/
example : At (c! "9999-12-31T23:59:59-01") (86400 * U 10000 1 1 + 3599) := ⟨_, rfl, rfl, by decide +kernel, by decide +kernel⟩

/-! ### Order -/

/-- C94: the comparisons of two seconds, in whatever zones they are written.  A second is
both before and after itself. -/
theorem C94_compare {s t : Str} {i j : Int} (hs : At s i) (ht : At t j) :
    isBefore s t = .ok (decide (i ≤ j)) ∧ isAfter s t = .ok (decide (j ≤ i)) := by
  obtain ⟨x, px, -, xl, xu⟩ := hs
  obtain ⟨y, py, -, yl, yu⟩ := ht
  obtain ⟨h1, h2⟩ := C34_strings px py ⟨xl, xu⟩ ⟨yl, yu⟩
  exact ⟨h2, h1⟩

example : ∃ i j, At (c! "1985-04-12T23:20:30+05:45") i ∧ At (c! "-0044-03-15T12:00:00") j ∧ j ≤ i :=
  ⟨_, _, ⟨_, rfl, rfl, rfl, rfl⟩, ⟨_, rfl, rfl, rfl, rfl⟩, by decide +kernel⟩

/-- C94: a second and a date. -/
theorem C94_compare_date {s w : Str} {i l u : Int} (hs : At s i) (hw : Lasts w l u) :
    isBefore s w = .ok (decide (i ≤ l)) ∧ isAfter s w = .ok (decide (u ≤ i)) ∧
    isBefore w s = .ok (decide (u ≤ i)) ∧ isAfter w s = .ok (decide (i ≤ l)) := by
  obtain ⟨x, px, -, xl, xu⟩ := hs
  obtain ⟨y, py, -, yl, yu⟩ := hw
  obtain ⟨h1, h2⟩ := C34_strings px py ⟨xl, xu⟩ ⟨yl, yu⟩
  obtain ⟨h3, h4⟩ := C34_strings py px ⟨yl, yu⟩ ⟨xl, xu⟩
  exact ⟨h2, h1, h4, h3⟩

/-- The first second of a date is before it, the last one after it. -/
example : isBefore (c! "1985-04-12T00:00:00Z") (c! "1985-04-12") = .ok true ∧ isAfter (c! "1985-04-12T23:59:59Z") (c! "1985-04-12") = .ok true := ⟨rfl, rfl⟩

theorem strLe_same (c : Char) (s t : Str) : strLe (c :: s) (c :: t) = strLe s t := by simp [strLe]

theorem strLe_clock {m d hh mi ss m' d' hh' mi' ss' : Nat} (a1 : m < 100) (a2 : d < 100) (a3 : hh < 100) (a4 : mi < 100) (a5 : ss < 100)
    (b1 : m' < 100) (b2 : d' < 100) (b3 : hh' < 100) (b4 : mi' < 100) (b5 : ss' < 100) :
    strLe ('-' :: (pad2 m ++ '-' :: pad2 d) ++ 'T' :: (hmsText hh mi ss ++ c! "Z")) ('-' :: (pad2 m' ++ '-' :: pad2 d') ++ 'T' :: (hmsText hh' mi' ss' ++ c! "Z")) = true ↔
      m < m' ∨ (m = m' ∧ (d < d' ∨ (d = d' ∧ (hh < hh' ∨ (hh = hh' ∧ (mi < mi' ∨ (mi = mi' ∧ (ss < ss' ∨ ss = ss')))))))) := by
  unfold hmsText
  simp only [List.cons_append, List.append_assoc, List.nil_append, strLe_same]
  rw [strLe_pad2 a1 b1, strLe_same, strLe_pad2 a2 b2, strLe_same, strLe_pad2 a3 b3, strLe_same, strLe_pad2 a4 b4, strLe_same, strLe_pad2 a5 b5]
  simp only [strLe_refl, and_true]

theorem valid_small {y : Int} {m d : Nat} (h : Valid y m d) : m < 100 ∧ d < 100 := by
  have := monthLen_le y m
  obtain ⟨_, _, _, _⟩ := h
  omega

/-- Within a year the order of texts is that of the seconds. -/
theorem year_order (hf : DayCount f) {y y' : Int} {m d hh mi ss m' d' hh' mi' ss' : Nat} (V : Valid y m d) (V' : Valid y' m' d') (k1 : hh < 24) (k2 : mi < 60)
    (k3 : ss < 60) (k1' : hh' < 24) (k2' : mi' < 60) (k3' : ss' < 60) :
    86400 * f y m d + ((3600 * hh + 60 * mi + ss : Nat) : Int) ≤ 86400 * f y' m' d' + ((3600 * hh' + 60 * mi' + ss' : Nat) : Int) ↔
      y < y' ∨ (y = y' ∧ strLe ('-' :: (pad2 m ++ '-' :: pad2 d) ++ 'T' :: (hmsText hh mi ss ++ c! "Z"))
        ('-' :: (pad2 m' ++ '-' :: pad2 d') ++ 'T' :: (hmsText hh' mi' ss' ++ c! "Z")) = true) := by
  have s1 := valid_small V
  have s2 := valid_small V'
  rw [strLe_clock s1.1 s1.2 (by omega) (by omega) (by omega) s2.1 s2.2 (by omega) (by omega) (by omega)]
  have h1 := day_le_iff hf V V'
  have h2 := day_le_iff hf V' V
  unfold dayLe at h1 h2
  generalize f y m d = a at *
  generalize f y' m' d' = b at *
  omega

theorem clock_day (neg : Bool) (y m d : Nat) (r : Str) :
    (⟨neg, y, .day m d⟩ : Date0).text ++ r = sgn neg (pad4 y) ++ ('-' :: (pad2 m ++ '-' :: pad2 d) ++ r) := by
  rw [date0_text, List.append_assoc]; rfl

theorem at_dash {neg : Bool} {y m d : Nat} {r : Str} : ((⟨neg, y, .day m d⟩ : Date0).text ++ r).head? = some '-' ↔ neg = true := by
  rw [clock_day]
  cases neg with
  | true => simp [sgn]
  | false =>
    simp only [sgn, Bool.false_eq_true, if_false, pad4, List.cons_append, List.head?_cons, Option.some.injEq, iff_false]
    exact dig_dash (by omega)

/-- C94: from year 0 on, the order of the texts in universal time is the order of the
seconds. -/
theorem C94_order {s t : Str} {i j : Int} (hs : At s i) (ht : At t j) (zs : Zulu s) (zt : Zulu t)
    (ns : s.head? ≠ some '-') (nt : t.head? ≠ some '-') : i < j ↔ s < t := by
  obtain ⟨neg, y, m, d, hh, mi, ss, ok, k1, k2, k3, rfl, rfl⟩ := (zulu_iff dayCount_unixDay).1 ⟨hs, zs⟩
  obtain ⟨neg', y', m', d', hh', mi', ss', ok', k1', k2', k3', rfl, rfl⟩ := (zulu_iff dayCount_unixDay).1 ⟨ht, zt⟩
  cases neg with
  | true => exact absurd (at_dash.2 rfl) ns
  | false =>
    cases neg' with
    | true => exact absurd (at_dash.2 rfl) nt
    | false =>
      have hy := ok.1
      have hy' := ok'.1
      simp only at hy hy'
      have h := year_order dayCount_unixDay ok'.2 ok.2 k1' k2' k3' k1 k2 k3
      rw [← Decidable.not_iff_not, ← strLe_iff, clock_day, clock_day]
      simp only [sgn, Bool.false_eq_true, if_false, Date0.value] at *
      rw [strLe_pad4 hy' hy]
      cases hb : strLe _ _ <;> simp only [hb, Bool.false_eq_true, and_true, and_false, or_false] at * <;>
        omega

example : ∃ i j, At (c! "1985-04-12T23:20:30Z") i ∧ At (c! "1985-04-13T00:00:00Z") j ∧ c! "1985-04-12T23:20:30Z" < c! "1985-04-13T00:00:00Z" :=
  ⟨_, _, ⟨_, rfl, rfl, rfl, rfl⟩, ⟨_, rfl, rfl, rfl, rfl⟩, by decide⟩

/-- C94: before year 0 (and in "-0000") the years are ordered the other way round, and
the seconds within a year as they are written. -/
theorem C94_order_negative {s t : Str} {i j : Int} (hs : At s i) (ht : At t j) (zs : Zulu s) (zt : Zulu t)
    (ns : s.head? = some '-') (nt : t.head? = some '-') : i < j ↔ if s.take 5 = t.take 5 then s < t else t < s := by
  obtain ⟨neg, y, m, d, hh, mi, ss, ok, k1, k2, k3, rfl, rfl⟩ := (zulu_iff dayCount_unixDay).1 ⟨hs, zs⟩
  obtain ⟨neg', y', m', d', hh', mi', ss', ok', k1', k2', k3', rfl, rfl⟩ := (zulu_iff dayCount_unixDay).1 ⟨ht, zt⟩
  obtain rfl := at_dash.1 ns
  obtain rfl := at_dash.1 nt
  have h := year_order dayCount_unixDay ok'.2 ok.2 k1' k2' k3' k1 k2 k3
  have tk : ∀ (y : Nat) (r : Str), (sgn true (pad4 y) ++ r).take 5 = '-' :: pad4 y := fun _ _ => rfl
  have hy := ok.1
  have hy' := ok'.1
  simp only at hy hy'
  rw [clock_day, clock_day, tk, tk]
  by_cases e : y = y'
  · subst e
    rw [if_pos rfl, ← Decidable.not_iff_not, ← strLe_iff]
    simp only [sgn, if_true, List.cons_append, Date0.value, strLe_same] at *
    rw [strLe_pad4 hy' hy, strLe_same]
    generalize strLe _ _ = b at *
    cases b <;> simp only [Bool.false_eq_true, and_true, and_false, or_false, or_true, iff_true] at h ⊢ <;> omega
  · rw [if_neg (fun k => e (pad4_inj hy hy' (List.cons.inj k).2)), ← Decidable.not_iff_not, ← strLe_iff]
    simp only [sgn, if_true, List.cons_append, Date0.value, strLe_same] at *
    rw [strLe_pad4 hy hy']
    generalize strLe _ _ = b at *
    generalize strLe _ _ = b' at *
    constructor
    · intro k
      have := h.1 (by omega)
      omega
    · intro k
      have := h.2 (by omega)
      omega

example : ∃ i j, At (c! "-0044-03-15T12:00:00Z") i ∧ At (c! "-0043-01-01T00:00:00Z") j ∧ i < j ∧ c! "-0043-01-01T00:00:00Z" < c! "-0044-03-15T12:00:00Z" :=
  ⟨_, _, ⟨_, rfl, rfl, rfl, rfl⟩, ⟨_, rfl, rfl, rfl, rfl⟩, by decide +kernel, by decide⟩

/-- C94: a second before year 0 is before any from year 0 on. -/
theorem C94_order_signs {s t : Str} {i j : Int} (hs : At s i) (ht : At t j) (zs : Zulu s) (zt : Zulu t)
    (ns : s.head? = some '-') (nt : t.head? ≠ some '-') (h0 : s.take 5 ≠ c! "-0000") : i < j := by
  obtain ⟨neg, y, m, d, hh, mi, ss, ok, k1, k2, k3, rfl, rfl⟩ := (zulu_iff dayCount_unixDay).1 ⟨hs, zs⟩
  obtain ⟨neg', y', m', d', hh', mi', ss', ok', k1', k2', k3', rfl, rfl⟩ := (zulu_iff dayCount_unixDay).1 ⟨ht, zt⟩
  obtain rfl := at_dash.1 ns
  cases neg' with
  | true => exact absurd (at_dash.2 rfl) nt
  | false =>
    have h := year_order dayCount_unixDay ok'.2 ok.2 k1' k2' k3' k1 k2 k3
    rw [clock_day] at h0
    have y0 : y ≠ 0 := fun e => h0 (by rw [e]; rfl)
    simp only [Date0.value, if_true, Bool.false_eq_true, if_false] at *
    rcases Int.lt_or_le (86400 * unixDay (-(y : Int)) m d + (3600 * hh + 60 * mi + ss)) (86400 * unixDay y' m' d' + (3600 * hh' + 60 * mi' + ss')) with k | k
    · exact k
    · have := h.1 (by omega)
      omega

example : ∃ i j, At (c! "-0001-12-31T23:59:59Z") i ∧ At (c! "0000-01-01T00:00:00Z") j ∧ Zulu (c! "-0001-12-31T23:59:59Z") ∧ Zulu (c! "0000-01-01T00:00:00Z") ∧
    (c! "-0001-12-31T23:59:59Z").head? = some '-' ∧ (c! "0000-01-01T00:00:00Z").head? ≠ some '-' ∧ (c! "-0001-12-31T23:59:59Z").take 5 ≠ c! "-0000" ∧ j = i + 1 :=
  ⟨_, _, ⟨_, rfl, rfl, rfl, rfl⟩, ⟨_, rfl, rfl, rfl, rfl⟩, by unfold Zulu; decide, by unfold Zulu; decide, by decide, by decide, by decide, by decide +kernel⟩

/-! ### Zones -/

theorem clock_zone (neg : Bool) (y m d hh mi ss : Nat) (z : Zone) :
    clockText neg y m d hh mi ss z = clockText neg y m d hh mi ss .none ++ z.text := by
  unfold clockText
  simp [Zone.text]

theorem clock_dash {neg : Bool} {y m d hh mi ss : Nat} {z : Zone} : (clockText neg y m d hh mi ss z).head? = some '-' ↔ neg = true := by
  rw [clock_split]; exact at_dash

theorem clock_noZone {neg : Bool} {y m d hh mi ss : Nat} {z : Zone} : NoZone (clockText neg y m d hh mi ss z) ↔ z = .none := by
  have e : (clockText neg y m d hh mi ss .none).length = if neg then 20 else 19 := by cases neg <;> rfl
  unfold NoZone
  rw [clock_zone, List.length_append, e, ← clock_zone]
  have hd : (if (clockText neg y m d hh mi ss z).head? = some '-' then 20 else 19) = if neg then 20 else 19 := by
    by_cases h : neg = true
    · rw [if_pos (clock_dash.2 h), if_pos h]
    · rw [if_neg (fun k => h (clock_dash.1 k)), if_neg h]
  rw [hd]
  cases z <;> simp [Zone.text]

/-- C94: a text without a zone is in universal time. -/
theorem C94_no_zone {s : Str} {i : Int} : At (s ++ c! "Z") i ↔ At s i ∧ NoZone s := by
  constructor
  · intro h
    obtain ⟨neg, y, m, d, hh, mi, ss, z, hy, V, k1, k2, k3, -, e⟩ := at_text dayCount_unixDay h
    have hz : Zulu (clockText neg y m d hh mi ss z) := by rw [← e]; exact List.getLast?_concat
    obtain rfl := clock_zulu.1 hz
    rw [clock_zone] at e
    obtain ⟨rfl, -⟩ := List.append_inj' e rfl
    refine ⟨?_, clock_noZone.2 rfl⟩
    rw [at_value dayCount_unixDay hy V k1 k2 k3 (.inl rfl)]
    rw [show clockText neg y m d hh mi ss .none ++ c! "Z" = clockText neg y m d hh mi ss .utc from (clock_zone neg y m d hh mi ss .utc).symm,
      at_value dayCount_unixDay hy V k1 k2 k3 (.inr rfl)] at h
    exact h
  · rintro ⟨h, n⟩
    obtain ⟨neg, y, m, d, hh, mi, ss, z, hy, V, k1, k2, k3, -, rfl⟩ := at_text dayCount_unixDay h
    obtain rfl := clock_noZone.1 n
    rw [show clockText neg y m d hh mi ss .none ++ c! "Z" = clockText neg y m d hh mi ss .utc from (clock_zone neg y m d hh mi ss .utc).symm,
      at_value dayCount_unixDay hy V k1 k2 k3 (.inr rfl)]
    exact (at_value dayCount_unixDay hy V k1 k2 k3 (.inl rfl) i).1 h

/-- C94: every text of a second is one without a zone, followed by a zone. -/
theorem C94_zones {s : Str} {i : Int} (h : At s i) : ∃ (b : Str) (z : Zone) (j : Int), s = b ++ z.text ∧ z.ok ∧ At b j ∧ NoZone b := by
  obtain ⟨neg, y, m, d, hh, mi, ss, z, hy, V, k1, k2, k3, ok, rfl⟩ := at_text dayCount_unixDay h
  exact ⟨_, z, _, clock_zone _ _ _ _ _ _ _ _, ok, (at_value dayCount_unixDay hy V k1 k2 k3 (.inl rfl) _).2 rfl, clock_noZone.2 rfl⟩

example : ∃ i j, At (c! "1985-04-12T23:20:30-04") i ∧ At (c! "1985-04-12T23:20:30") j ∧ NoZone (c! "1985-04-12T23:20:30") ∧ i = j + 4 * 3600 :=
  ⟨_, _, ⟨_, rfl, rfl, rfl, rfl⟩, ⟨_, rfl, rfl, rfl, rfl⟩, by unfold NoZone; decide, by decide +kernel⟩

/-- C94: from year 0 on any zone may follow, and its offset is subtracted. -/
theorem C94_offset {b : Str} {i j : Int} {z : Zone} (h : At b i) (n : NoZone b) (nb : b.head? ≠ some '-') (hz : z.ok) :
    At (b ++ z.text) j ↔ j = i - z.offset := by
  obtain ⟨neg, y, m, d, hh, mi, ss, z', hy, V, k1, k2, k3, -, rfl⟩ := at_text dayCount_unixDay h
  obtain rfl := clock_noZone.1 n
  cases neg with
  | true => exact absurd (clock_dash.2 rfl) nb
  | false =>
    have hi := (at_value dayCount_unixDay hy V k1 k2 k3 (.inl rfl) i).1 h
    simp only [Bool.false_eq_true, if_false] at hi
    rw [← clock_zone]
    obtain ⟨_, _, _, _, _, _, r, hr, e, -, -, -, -, -, h1, h2⟩ := C06_instant dayCount_unixDay hy V k1 k2 k3 hz
    rw [← hi] at h1 h2
    constructor
    · rintro ⟨r', h', -, l, -⟩
      rw [hr] at h'; cases h'
      rw [h1] at l; cases l; rfl
    · rintro rfl
      exact ⟨r, hr, by rw [e]; rfl, h1, h2⟩

example : ∃ i, At (c! "1985-04-12T23:20:30") i ∧ NoZone (c! "1985-04-12T23:20:30") ∧ (c! "1985-04-12T23:20:30").head? ≠ some '-' ∧ (Zone.full true 3 30).ok ∧
    At (c! "1985-04-12T23:20:30-03:30") (i + 12600) :=
  ⟨_, ⟨_, rfl, rfl, rfl, rfl⟩, by unfold NoZone; decide, by decide, by decide, ⟨_, rfl, rfl, by decide +kernel, by decide +kernel⟩⟩

theorem at_clock {neg : Bool} {y m d hh mi ss : Nat} {z : Zone} (hy : y < 10000) (V : Valid y m d)
    (k1 : hh < 24) (k2 : mi < 60) (k3 : ss < 60) (hz : z.ok) (i : Int) :
    At (clockText neg y m d hh mi ss z) i ↔ i = if neg then timeToBCE (localTime y m d hh mi ss z) else localTime y m d hh mi ss z := by
  have key := parse_clock (neg := neg) hy V.1 V.2.1 V.2.2.1 (Nat.le_trans V.2.2.2 (monthLen_pos _ _).2)
    (show hh < 100 by omega) (show mi < 100 by omega) (show ss < 100 by omega) (zone_shape hz)
  rw [if_pos ⟨V, ⟨k1, k2, k3⟩, hz⟩] at key
  constructor
  · rintro ⟨r, h, -, l, -⟩
    rw [key] at h; cases h
    cases l; rfl
  · rintro rfl
    exact ⟨_, key, rfl, rfl, rfl⟩

/-- C94: a sign before the year is applied last.  If a text has an offset, and another
text gives the same second in universal time, they still do with a sign in front. -/
theorem C94_sign {s q : Str} {k j : Int} (hs : At s k) (hq : At q k) (ns : s.head? ≠ some '-') (nq : q.head? ≠ some '-') :
    At ('-' :: s) j ↔ At ('-' :: q) j := by
  obtain ⟨neg, y, m, d, hh, mi, ss, z, hy, V, k1, k2, k3, hz, rfl⟩ := at_text dayCount_unixDay hs
  obtain ⟨neg', y', m', d', hh', mi', ss', z', hy', V', k1', k2', k3', hz', rfl⟩ := at_text dayCount_unixDay hq
  cases neg with
  | true => exact absurd (clock_dash.2 rfl) ns
  | false =>
    cases neg' with
    | true => exact absurd (clock_dash.2 rfl) nq
    | false =>
      have e1 := (at_clock hy V k1 k2 k3 hz k).1 hs
      have e2 := (at_clock hy' V' k1' k2' k3' hz' k).1 hq
      have f1 := at_clock (neg := true) hy V k1 k2 k3 hz j
      have f2 := at_clock (neg := true) hy' V' k1' k2' k3' hz' j
      simp only [Bool.false_eq_true, if_false, if_true] at e1 e2 f1 f2
      rw [← e1] at f1
      rw [← e2] at f2
      exact f1.trans f2.symm

/-- The first hour of the year -0100, an hour east of Greenwich, becomes the last hour of
the year -0099 instead of that of -0101. -/
example : ∃ k j, At (c! "0100-01-01T00:00:00+01") k ∧ At (c! "0099-12-31T23:00:00Z") k ∧ At (c! "-0100-01-01T00:00:00+01") j ∧ At (c! "-0099-12-31T23:00:00Z") j :=
  ⟨_, _, ⟨_, rfl, rfl, rfl, rfl⟩, ⟨_, rfl, rfl, by decide +kernel, by decide +kernel⟩, ⟨_, rfl, rfl, rfl, rfl⟩, ⟨_, rfl, rfl, by decide +kernel, by decide +kernel⟩⟩

/-- Half past midnight in Kathmandu. -/
example : ∃ i, At (c! "1985-04-13T00:30:00") i ∧ NoZone (c! "1985-04-13T00:30:00") ∧ (Zone.full false 5 45).ok ∧
    c! "1985-04-13T00:30:00" ++ (Zone.full false 5 45).text = c! "1985-04-13T00:30:00+05:45" ∧ At (c! "1985-04-12T18:45:00Z") (i - (Zone.full false 5 45).offset) :=
  ⟨_, ⟨_, rfl, rfl, rfl, rfl⟩, by unfold NoZone; decide, by decide, by decide, ⟨_, rfl, rfl, by decide +kernel, by decide +kernel⟩⟩

end EDTF
