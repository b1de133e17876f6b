/- C91: texts that mean the same time. -/
import Verif.LemmasSame3
import Verif.PropsExact
namespace EDTF
open Spec

variable {f : Int → Nat → Nat → Int}

/-! ### Intervals -/

theorem early_ten {s : Str} (h : EarlyDays s) : TenDays s := by
  obtain ⟨n, m, k, h1, h2, h3, h4, e⟩ := h
  refine ⟨n, m, k, h1, h2, h3, ?_, e⟩
  rcases h4 with rfl | ⟨rfl, -⟩ <;> decide

theorem sides_noSlash {l r : Str} (h : Sides l r) : '/' ∉ r := by
  rcases h with ⟨a, b, ha, hb, ra, rb, rfl, rfl⟩ | ⟨ht, x, -, rfl⟩ | ⟨rfl | rfl, -⟩
  · exact e_not_mem hb.1 (by decide) (by decide) (by decide)
  · exact date0_slash x
  · simp
  · decide

theorem first_valid {y : Int} {m d : Nat} (V : Valid y m d) : Valid y m 1 :=
  ⟨V.1, V.2.1, Nat.le_refl 1, by have := (monthLen_pos y m).1; omega⟩

theorem last_valid {y : Int} {m d : Nat} (V : Valid y m d) : Valid y m (monthLen y m) :=
  ⟨V.1, V.2.1, by have := (monthLen_pos y m).1; omega, Nat.le_refl _⟩

theorem date_noX (x : Date0) : 'X' ∉ x.text := by
  have := runText_not_mem [x] (c := 'X') (by decide) (by decide)
  simpa [runText] using this

/-- An accepted text has at most one slash. -/
theorem one_slash {l r : Str} {d : EDTFDate} (h : parseString (l ++ '/' :: r) = .ok d) : '/' ∉ l := by
  intro hm
  obtain ⟨a, b, rfl, ha⟩ := List.eq_append_cons_of_mem hm
  rw [List.append_assoc, List.cons_append] at h
  exact sides_noSlash (accepted_slash ha ((C54_language _).1 ⟨d, h⟩)) (by simp)

theorem signed_cut {b b' : Bool} {n n' : Nat} (hn : n < 10000) (hn' : n' < 10000) {u u' : Str} (e : signed b (pad4 n) ++ u = signed b' (pad4 n') ++ u') :
    b = b' ∧ n = n' ∧ u = u' := by
  have : b = b' := by
    obtain ⟨a, _, t, e1, h1, -⟩ := pad4_head n
    obtain ⟨a', _, t', e2, h2, -⟩ := pad4_head n'
    rw [e1, e2] at e
    cases b <;> cases b' <;> simp [signed] at e ⊢
    · rw [e.1] at h1; revert h1; decide
    · rw [← e.1] at h2; revert h2; decide
  subst this
  obtain ⟨e1, e2⟩ := List.append_inj e (by cases b <;> simp [signed, pad4_length])
  refine ⟨rfl, pad4_inj hn hn' ?_, e2⟩
  cases b
  · exact e1
  · exact (List.cons.inj e1).2

theorem digitDate_ne {neg : Bool} {n : Nat} {u l : Str} (hl : l = [] ∨ l = c! "..") : l ≠ signed neg (pad4 n) ++ u := by
  obtain ⟨a, _, t, e1, h1, -⟩ := pad4_head n
  rw [e1]
  rcases hl with rfl | rfl
  · cases neg <;> simp [signed]
  · cases neg
    · intro e
      simp only [signed, Bool.false_eq_true, if_false, List.cons_append, List.cons.injEq] at e
      rw [← e.1] at h1
      revert h1; decide
    · simp [signed]

theorem ten_digits {neg : Bool} {n : Nat} {u : Str} (hu : 'X' ∉ u) : ¬ TenDays (signed neg (pad4 n) ++ u) := by
  intro h
  have := ten_x h
  simp only [List.mem_append] at this
  rcases this with k | k
  · cases neg
    · exact pad4_noX _ k
    · rcases List.mem_cons.1 k with k | k
      · revert k; decide
      · exact pad4_noX _ k
  · exact hu k

theorem readable_runs {a : Endpoint} (h : a.Readable) : ∃ y1 y2 m1 m2 d1 d2, a.date.Runs y1 m1 d1 y2 m2 d2 := by
  obtain ⟨-, y1, y2, m1, m2, d1, d2, h⟩ := h
  exact ⟨y1, y2, m1, m2, d1, d2, h⟩

theorem open_begin {d g : EDTFDate} {a a' : Date} (h : Begins d a) (k : Begins g a') (ho : SameEnd a a') : SameStart d g := ⟨a, a', h, k, ho⟩

/-- Not the same: one end is open or unknown and the other is a second. -/
theorem not_same_stop {d g : EDTFDate} {b : Date} {u : Int} (h : Finishes d b) (hb : b.isOpen = true ∨ b.unknown = true) (k : ToSecond g u) : ¬ SameStop d g := by
  rintro ⟨x, x', p, q, e1, e2, e3⟩
  obtain ⟨y, k, k1, k2, k3⟩ := k
  cases finishes_unique h p
  cases finishes_unique k q
  rcases hb with hb | hb
  · rw [hb, k2] at e2; cases e2
  · rw [hb, k3] at e3; cases e3

/-- An interval begins when its left side alone begins, and ends when its right side alone ends.
The exceptions, exactly: days of which the last digit is unspecified are read as their whole month
when they are alone, and an open or unknown end after a month or a day is dropped. -/
theorem C91_interval {l r : Str} {d e g : EDTFDate} (hl : parseString l = .ok d) (hr : parseString r = .ok e)
    (h : parseString (l ++ '/' :: r) = .ok g) :
    (SameStart d g ↔ ¬ TenDays l ∧ ¬ DayEnded l r) ∧ (SameStop e g ↔ ¬ EarlyDays r ∧ ¬ MonthEnded l r) := by
  obtain ⟨f, hf⟩ : ∃ f : Int → Nat → Nat → Int, DayCount f := ⟨_, dayCount_unixDay⟩
  have hs := one_slash h
  have al := (C54_language _).1 ⟨d, hl⟩
  have ar := (C54_language _).1 ⟨e, hr⟩
  have hl' := hl
  have Dl := (C55_denotes hf _ _).1 hl
  have Dr := (C55_denotes hf _ _).1 hr
  have Dg := (C55_denotes hf _ _).1 h
  rcases accepted_slash hs ((C54_language _).1 ⟨g, h⟩) with ⟨a, b, ha, hb, ra, rb, rfl, rfl⟩ | ⟨ht, x, hx, rfl⟩ | ⟨ht, neg, n, u, hn, rfl, hu⟩
  · obtain ⟨y1, y2, m1, m2, d1, d2, hra⟩ := readable_runs ha
    obtain ⟨z1, z2, n1, n2, c1, c2, hrb⟩ := readable_runs hb
    have hA := RangeOf.date (f := f) a ha.1 _ _ _ _ _ _ hra
    have hB := RangeOf.date (f := f) b hb.1 _ _ _ _ _ _ hrb
    have eg := C55_unique hf Dg (.interval a b ha.1 hb.1 ra rb _ _ hA hB)
    have g1 : FromSecond g (86400 * f y1 m1 d1) := by rw [eg]; exact ⟨_, ⟨_, rfl, rfl⟩, ts_start .., rfl, rfl⟩
    have g2 : ToSecond g (86400 * f z2 n2 c2 + 86399) := by rw [eg]; exact ⟨_, ⟨_, rfl, rfl⟩, ts_end .., rfl, rfl⟩
    have hbt : ¬ (b.text = [] ∨ b.text = c! "..") := by
      rintro (k | k)
      · exact e_nonempty hb.1 k
      · exact e_not_mem (c := '.') hb.1 (by decide) (by decide) (by decide) (by rw [k]; decide)
    constructor
    · obtain ⟨d', hd', hc⟩ := alone_time hf ha.1 ra (alone_of_accepted ha ra al) hra
      cases C55_unique hf Dl hd'
      rcases hc with ⟨ht, hc⟩ | ⟨ht, rfl, rfl, h1, -, hc⟩
      · exact iff_of_true (from_same hc.1 g1) ⟨ht, fun k => hbt k.1⟩
      · refine iff_of_false (fun k => ?_) (fun k => k.1 ht)
        have e := same_from hc.1 g1 k
        have V := hra.2.2.2.1
        have := (day_unique hf (first_valid V) V (by omega)).2.2
        omega
    · obtain ⟨d', hd', hc⟩ := alone_time hf hb.1 rb (alone_of_accepted hb rb ar) hrb
      cases C55_unique hf Dr hd'
      rcases hc with ⟨ht, hc⟩ | ⟨ht, rfl, rfl, -, h1, hc⟩
      · exact iff_of_true (to_same hc.2 g2) ⟨fun k => ht (early_ten k), fun k => hbt k.1⟩
      · have V := hrb.2.2.2.2
        by_cases he : EarlyDays b.text
        · refine iff_of_false (fun k => ?_) (fun k => k.1 he)
          have e := same_to hc.2 g2 k
          have := (day_unique hf (last_valid V) V (by omega)).2.2
          have := h1.2 he
          omega
        · refine iff_of_true (to_same hc.2 ?_) ⟨he, fun k => hbt k.1⟩
          have : c2 = monthLen z1 n1 := by
            have : ¬ c2 < monthLen z1 n1 := fun k => he (h1.1 k)
            have := V.2.2.2
            omega
          rw [← this]
          exact g2
  · have n1 : ¬ DayEnded l x.text := fun ⟨_, _, _, _, _, _, _, _, e⟩ => digitDate_ne ht e
    have n2 : ¬ MonthEnded l x.text := fun ⟨_, _, _, _, _, _, e⟩ => digitDate_ne ht e
    have n3 : ¬ TenDays l := fun k => by have := ten_x k; rcases ht with rfl | rfl <;> revert this <;> decide
    have n4 : ¬ EarlyDays x.text := fun k => date_noX x (ten_x (early_ten k))
    cases C55_unique hf Dr (.date x hx)
    rcases ht with rfl | rfl
    · cases C55_unique hf Dg (.startless .unknown (.inr rfl) x hx)
      cases C55_unique hf Dl .unknown
      exact ⟨iff_of_true ⟨_, _, ⟨_, rfl, rfl⟩, ⟨_, rfl, rfl⟩, rfl, rfl, rfl⟩ ⟨n3, n1⟩,
        iff_of_true ⟨_, _, ⟨_, rfl, rfl⟩, ⟨_, rfl, rfl⟩, rfl, rfl, rfl⟩ ⟨n4, n2⟩⟩
    · cases C55_unique hf Dg (.startless .opened (.inl rfl) x hx)
      cases C55_unique hf Dl .opened
      exact ⟨iff_of_true ⟨_, _, ⟨_, rfl, rfl⟩, ⟨_, rfl, rfl⟩, rfl, rfl, rfl⟩ ⟨n3, n1⟩,
        iff_of_true ⟨_, _, ⟨_, rfl, rfl⟩, ⟨_, rfl, rfl⟩, rfl, rfl, rfl⟩ ⟨n4, n2⟩⟩
  · have hre : ∃ b, Finishes e b ∧ (b.isOpen = true ∨ b.unknown = true) := by
      rcases ht with rfl | rfl
      · cases C55_unique hf Dr .unknown
        exact ⟨_, ⟨_, rfl, rfl⟩, .inr rfl⟩
      · cases C55_unique hf Dr .opened
        exact ⟨_, ⟨_, rfl, rfl⟩, .inl rfl⟩
    have nr : ¬ EarlyDays r := fun k => by have := ten_x (early_ten k); rcases ht with rfl | rfl <;> revert this <;> decide
    rcases hu with rfl | ⟨hy, m, m1, m2, hu⟩
    · have n3 : ¬ TenDays (signed neg (pad4 n) ++ []) := ten_digits (by simp)
      have n1 : ¬ DayEnded (signed neg (pad4 n) ++ []) r := fun ⟨_, _, _, _, _, hn', _, _, e⟩ => by have := (signed_cut hn hn' e).2.2; cases this
      have n2 : ¬ MonthEnded (signed neg (pad4 n) ++ []) r := fun ⟨_, _, _, _, _, hn', e⟩ => by have := (signed_cut hn hn' e).2.2; cases this
      have te : signed neg (pad4 n) ++ [] = (⟨neg, n, .none⟩ : Date0).text := by cases neg <;> simp [signed, Date0.text, Date0.qtext, Deco.text]
      rw [te] at *
      cases C55_unique hf Dl (.date ⟨neg, n, .none⟩ ⟨hn, trivial⟩)
      rcases ht with rfl | rfl
      · cases C55_unique hf Dg (.endless neg n hn .unknown (.inr rfl))
        cases C55_unique hf Dr .unknown
        exact ⟨iff_of_true ⟨_, _, ⟨_, rfl, rfl⟩, ⟨_, rfl, rfl⟩, rfl, rfl, rfl⟩ ⟨n3, n1⟩,
          iff_of_true ⟨_, _, ⟨_, rfl, rfl⟩, ⟨_, rfl, rfl⟩, rfl, rfl, rfl⟩ ⟨nr, n2⟩⟩
      · cases C55_unique hf Dg (.endless neg n hn .opened (.inl rfl))
        cases C55_unique hf Dr .opened
        exact ⟨iff_of_true ⟨_, _, ⟨_, rfl, rfl⟩, ⟨_, rfl, rfl⟩, rfl, rfl, rfl⟩ ⟨n3, n1⟩,
          iff_of_true ⟨_, _, ⟨_, rfl, rfl⟩, ⟨_, rfl, rfl⟩, rfl, rfl, rfl⟩ ⟨nr, n2⟩⟩
    · obtain ⟨b, hb1, hb2⟩ := hre
      rcases hu with rfl | ⟨k, k1, k2, rfl⟩
      · have Dg' := Denotes.month (f := f) neg n m hn m1 m2 _ rfl hy ('/' :: r) (.ended neg r ht)
        rw [show signed neg (pad4 n) ++ '-' :: (pad2 m ++ '/' :: r) = signed neg (pad4 n) ++ '-' :: pad2 m ++ '/' :: r by simp] at Dg'
        cases C55_unique hf Dg Dg'
        have tg : Timed _ _ _ := timed_months (f := f) (s := signed neg (pad4 n) ++ '-' :: pad2 m ++ '/' :: r) (k := c! "Seasons") (n := 1)
          (y1 := if neg then -(n : Int) else n) (y2 := if neg then -(n : Int) else n) (m1 := m) (m2 := m)
        have te : signed neg (pad4 n) ++ '-' :: pad2 m = (⟨neg, n, .month m⟩ : Date0).text := by cases neg <;> simp [signed, Date0.text, Date0.qtext, Deco.text]
        have n3 := ten_digits (neg := neg) (n := n) (u := '-' :: pad2 m) (by simp [pad2_noX])
        have n1 : ¬ DayEnded (signed neg (pad4 n) ++ '-' :: pad2 m) r := fun ⟨_, _, _, _, _, hn', _, _, e⟩ => by
          have := congrArg List.length (signed_cut hn hn' e).2.2
          simp [pad2] at this
        have n2 : MonthEnded (signed neg (pad4 n) ++ '-' :: pad2 m) r := ⟨ht, neg, n, m, [], hn, by simp⟩
        refine ⟨iff_of_true ?_ ⟨n3, n1⟩, iff_of_false (not_same_stop hb1 hb2 tg.2) (fun k => k.2 n2)⟩
        rw [te] at Dl
        cases C55_unique hf Dl (.date ⟨neg, n, .month m⟩ ⟨hn, m1, m2⟩)
        exact from_same timed_result.1 tg.1
      · have Dg' := Denotes.month (f := f) neg n m hn m1 m2 _ rfl hy ('-' :: (pad2 k ++ '/' :: r)) (.dayEnded neg k k1 k2 r ht)
        rw [show signed neg (pad4 n) ++ '-' :: (pad2 m ++ '-' :: (pad2 k ++ '/' :: r)) = signed neg (pad4 n) ++ '-' :: (pad2 m ++ '-' :: pad2 k) ++ '/' :: r by simp] at Dg'
        cases C55_unique hf Dg Dg'
        have tg : Timed _ _ _ := timed_months (f := f) (s := signed neg (pad4 n) ++ '-' :: (pad2 m ++ '-' :: pad2 k) ++ '/' :: r) (k := c! "Seasons") (n := 1)
          (y1 := if neg then -(n : Int) else n) (y2 := if neg then -(n : Int) else n) (m1 := m) (m2 := m)
        have te : signed neg (pad4 n) ++ '-' :: (pad2 m ++ '-' :: pad2 k) = (⟨neg, n, .day m k⟩ : Date0).text := by cases neg <;> simp [signed, Date0.text, Date0.qtext, Deco.text]
        have n3 := ten_digits (neg := neg) (n := n) (u := '-' :: (pad2 m ++ '-' :: pad2 k)) (by simp [pad2_noX])
        have n2 : MonthEnded (signed neg (pad4 n) ++ '-' :: (pad2 m ++ '-' :: pad2 k)) r := ⟨ht, neg, n, m, '-' :: pad2 k, hn, by simp⟩
        have V := C05_accepts_only_days neg hn m1 m2 k1 k2 (r := d) (by rw [← hl']; congr 1; cases neg <;> simp [signed])
        have n1 : DayEnded (signed neg (pad4 n) ++ '-' :: (pad2 m ++ '-' :: pad2 k)) r ↔ k ≠ 1 := by
          constructor
          · rintro ⟨_, _, _, _, k', hn', hk, hk1, e⟩ rfl
            have := (signed_cut hn hn' e).2.2
            simp only [List.cons.injEq, true_and] at this
            have := (List.append_inj this (by simp [pad2])).2
            simp only [List.cons.injEq, true_and] at this
            exact hk1 (pad2_inj hk (by decide) this.symm)
          · exact fun hk => ⟨ht, neg, n, m, k, hn, by omega, hk, rfl⟩
        refine ⟨?_, iff_of_false (not_same_stop hb1 hb2 tg.2) (fun k => k.2 n2)⟩
        rw [te] at Dl
        cases C55_unique hf Dl (.date ⟨neg, n, .day m k⟩ ⟨hn, V⟩)
        have td : FromSecond _ _ := (timed_result (f := f) (x := ⟨neg, n, .day m k⟩) (t := (⟨neg, n, .day m k⟩ : Date0).text) (s := (⟨neg, n, .day m k⟩ : Date0).text) (n := 0) (k := c! "Date") (u := 0) (a := 0)).1
        rw [n1]
        constructor
        · intro hsame
          refine ⟨n3, fun hk => ?_⟩
          have e := same_from td tg.1 hsame
          exact hk (day_unique hf V (first_valid V)
            (show f (if neg then -(n : Int) else n) m k = _ by
              have e : 86400 * f (if neg then -(n : Int) else n) m k = 86400 * f (if neg then -(n : Int) else n) m 1 := e
              omega)).2.2
        · rintro ⟨-, hk⟩
          have : k = 1 := by omega
          subst this
          exact from_same td tg.1

/-- "1985-04-2X" begins with the 20th as the left side of an interval, and with the 1st alone. -/
example : ∃ d e g, parseString (c! "1985-04-2X") = .ok d ∧ parseString (c! "1985-05") = .ok e ∧ parseString (c! "1985-04-2X/1985-05") = .ok g ∧
    ¬ SameStart d g ∧ SameStop e g := by
  refine ⟨_, _, _, rfl, rfl, rfl, fun k => ?_, ?_⟩
  · exact ((C91_interval (l := c! "1985-04-2X") (r := c! "1985-05") rfl rfl rfl).1.1 k).1 ⟨1985, 4, '2', by decide, by decide, by decide, by decide, by decide⟩
  · refine (C91_interval (l := c! "1985-04-2X") (r := c! "1985-05") rfl rfl rfl).2.2 ⟨?_, ?_⟩
    · rintro ⟨n, m, k, -, -, -, -, e⟩
      have := congrArg List.length e
      simp [pad4_length, pad2] at this
    · rintro ⟨h, -⟩
      revert h
      decide

/-- The open end of "1985-04-12/.." is dropped, and so is the day. -/
example : ∃ d e g, parseString (c! "1985-04-12") = .ok d ∧ parseString (c! "..") = .ok e ∧ parseString (c! "1985-04-12/..") = .ok g ∧
    ¬ SameStart d g ∧ ¬ SameStop e g := by
  refine ⟨_, _, _, rfl, rfl, rfl, fun k => ?_, fun k => ?_⟩
  · exact ((C91_interval (l := c! "1985-04-12") (r := c! "..") rfl rfl rfl).1.1 k).2
      ⟨.inr rfl, false, 1985, 4, 12, by decide, by decide, by decide, by decide⟩
  · exact ((C91_interval (l := c! "1985-04-12") (r := c! "..") rfl rfl rfl).2.1 k).2
      ⟨.inr rfl, false, 1985, 4, c! "-12", by decide, by decide⟩

/-- A text and the interval from it to itself mean the same time, unless it is a day of which the
last digit is unspecified. -/
theorem C91_itself {s : Str} {d g : EDTFDate} (hs : parseString s = .ok d) (h : parseString (s ++ '/' :: s) = .ok g) : SameTime d g ↔ ¬ TenDays s := by
  have n1 : ¬ MonthEnded s s := by
    rintro ⟨ht, _, _, _, _, _, e⟩
    exact digitDate_ne ht e
  have n2 : ¬ DayEnded s s := by
    rintro ⟨ht, _, _, _, _, _, _, _, e⟩
    exact digitDate_ne ht e
  obtain ⟨h1, h2⟩ := C91_interval hs hs h
  constructor
  · exact fun k => (h1.1 k.1).1
  · exact fun k => ⟨h1.2 ⟨k, n2⟩, h2.2 ⟨fun e => k (early_ten e), n1⟩⟩

example : ∃ d g, parseString (c! "~1985-04") = .ok d ∧ parseString (c! "~1985-04/~1985-04") = .ok g ∧ SameTime d g := by
  refine ⟨_, _, rfl, rfl, (C91_itself (s := c! "~1985-04") rfl rfl).2 ?_⟩
  rintro ⟨n, m, k, -, -, -, -, e⟩
  have := congrArg List.length e
  simp [pad4_length, pad2] at this

example : ∃ d g, parseString (c! "1985-04-1X") = .ok d ∧ parseString (c! "1985-04-1X/1985-04-1X") = .ok g ∧ ¬ SameTime d g :=
  ⟨_, _, rfl, rfl, fun k => (C91_itself (s := c! "1985-04-1X") rfl rfl).1 k ⟨1985, 4, '1', by decide, by decide, by decide, by decide, by decide⟩⟩

/-! ### Sets -/

/-- A member of a set is accepted alone, and its range in the set begins and ends as it does. -/
theorem member_same (hf : DayCount f) {cs : List Chunk} (hc : ChunksOk cs) {t : Str} (ht : t ∈ cs.flatMap Chunk.members) {R : DateRange} (hR : RangeOf f t R) :
    ∃ d, parseString t = .ok d ∧ (∃ a a', Begins d a ∧ R.lower = some a' ∧ SameEnd a a') ∧ ∃ b b', Finishes d b ∧ R.upper = some b' ∧ SameEnd b b' := by
  cases hR with
  | absent =>
    exact ⟨_, (C55_denotes hf _ _).2 .unknown, ⟨_, _, ⟨_, rfl, rfl⟩, rfl, rfl, rfl, rfl⟩, _, _, ⟨_, rfl, rfl⟩, rfl, rfl, rfl, rfl⟩
  | date e he y1 m1 d1 y2 m2 d2 hr =>
    obtain ⟨z, hz, ez⟩ := member_date hc.1 ht ⟨e, ⟨he, y1, y2, m1, m2, d1, d2, hr⟩, rfl⟩
    have hS := SpanOf.date (f := f) e he _ _ _ _ _ _ hr
    have hS' := SpanOf.date (f := f) (dateE z) (dateE_ok z).1 _ _ _ _ _ _ (date_runs hz)
    rw [dateE_text, ← ez] at hS'
    have t1 := timed_span (s := []) (k := []) (n := 0) hf he rfl hS hr
    obtain ⟨e1, e2⟩ := span_text_unique hf hS hS'
    rw [e1, e2] at t1
    have t2 := timed_span (s := []) (k := []) (n := 0) hf (dateE_ok z).1 (by rw [dateE_text, ez]) hS' (date_runs hz)
    obtain ⟨k1, k2⟩ := same_timed t1 t2 (timed_same t1 t1)
    obtain ⟨⟨a, p1, p2, p3, p4⟩, b, q1, q2, q3, q4⟩ := timed_result (f := f) (x := z) (t := z.text) (s := z.text) (k := c! "Date") (n := 0) (u := 0) (a := 0)
    refine ⟨_, by rw [ez]; exact (C55_denotes hf _ _).2 (Denotes.date z hz), ⟨a, _, p1, rfl, ?_, p3, p4⟩, b, _, q1, rfl, ?_, q3, q4⟩
    · exact (p2.trans (congrArg some k1.symm)).trans (ts_start ..).symm
    · exact (q2.trans (congrArg some k2.symm)).trans (ts_end ..).symm

theorem span_range {t : Str} {S E : DateRange} (h : SpanOf f t S E) : ∃ R, RangeOf f t R ∧ R.lower = S.lower ∧ R.upper = E.upper := by
  cases h with
  | date e he y1 m1 d1 y2 m2 d2 hr => exact ⟨_, .date e he y1 m1 d1 y2 m2 d2 hr, rfl, rfl⟩

theorem flagged_lower {p : Prec} {R : DateRange} {a : Date} (h : R.lower = some a) : ∃ a', (flagged p R).lower = some a' ∧ SameEnd a a' := by
  obtain ⟨e, l, u⟩ := R
  cases h
  exact ⟨_, rfl, rfl, rfl, rfl⟩

theorem flagged_upper {p : Prec} {R : DateRange} {a : Date} (h : R.upper = some a) : ∃ a', (flagged p R).upper = some a' ∧ SameEnd a a' := by
  obtain ⟨e, l, u⟩ := R
  cases h
  exact ⟨_, rfl, rfl, rfl, rfl⟩

theorem end_trans {a b c : Date} (h : SameEnd a b) (k : SameEnd b c) : SameEnd a c := ⟨h.1.trans k.1, h.2.1.trans k.2.1, h.2.2.trans k.2.2⟩

theorem textLe_refl (t : Str) : TextLe t t := by
  induction t with
  | nil => exact .nil []
  | cons c t ih => exact .eq c t t ih

/-- A set begins when its least member alone begins, and ends when its greatest member alone ends,
or is open there.  (A set that is open on both sides is open only at its start.) -/
theorem C91_set {o c : Char} (hb : Brackets o c) {cs : List Chunk} (hc : ChunksOk cs) {g : EDTFDate}
    (h : parseString (o :: (commaJoin (cs.map Chunk.text) ++ [c])) = .ok g) :
    ∃ a b d e w, Extremes (cs.flatMap Chunk.members) a b ∧ parseString a = .ok d ∧ parseString b = .ok e ∧ parseString (c! "..") = .ok w ∧
      SameStart (if cs.any Chunk.opensStart then w else d) g ∧ SameStop (if cs.any Chunk.opensEnd && !cs.any Chunk.opensStart then w else e) g := by
  obtain ⟨f, hf⟩ : ∃ f : Int → Nat → Nat → Int, DayCount f := ⟨_, dayCount_unixDay⟩
  obtain ⟨S, E, hs, rfl⟩ := set_result hf hb hc h
  have hw := (C55_denotes hf _ _).2 Denotes.opened
  have mem := fun {t : Str} => member_same hf hc (t := t)
  have single : ∀ {t : Str}, cs.flatMap Chunk.members = [t] → Extremes (cs.flatMap Chunk.members) t t := by
    intro t e
    rw [e]
    refine ⟨by simp, by simp, ?_⟩
    intro u hu
    rw [List.mem_singleton.1 hu]
    exact ⟨textLe_refl t, textLe_refl t⟩
  generalize cs.any Chunk.opensStart = so at *
  generalize cs.any Chunk.opensEnd = eo at *
  cases hs with
  | one t ht S E hs =>
    obtain ⟨R, hR, e1, e2⟩ := span_range hs
    obtain ⟨d, hd, ⟨a, a', k1, k2, k3⟩, b, b', k4, k5, k6⟩ := mem ht.1 hR
    obtain ⟨a2, l1, l2⟩ := flagged_lower (p := setFlag o) (e1.symm.trans k2)
    obtain ⟨b2, l3, l4⟩ := flagged_upper (p := setFlag o) (e2.symm.trans k5)
    exact ⟨t, t, d, d, _, ht, hd, hd, hw, ⟨_, _, k1, ⟨_, rfl, l1⟩, end_trans k3 l2⟩, ⟨_, _, k4, ⟨_, rfl, l3⟩, end_trans k6 l4⟩⟩
  | closed a b ht hab R S hR hS =>
    obtain ⟨d, hd, ⟨x, x', k1, k2, k3⟩, -⟩ := mem ht.1 hR
    obtain ⟨e, he, -, ⟨y, y', k4, k5, k6⟩⟩ := mem ht.2.1 hS
    obtain ⟨a2, l1, l2⟩ := flagged_lower (p := setFlag o) k2
    obtain ⟨b2, l3, l4⟩ := flagged_upper (p := setFlag o) k5
    exact ⟨a, b, d, e, _, ht, hd, he, hw, ⟨_, _, k1, ⟨_, rfl, l1⟩, end_trans k3 l2⟩, ⟨_, _, k4, ⟨_, rfl, l3⟩, end_trans k6 l4⟩⟩
  | upTo1 t ht R hR =>
    obtain ⟨d, hd, -, b, b', k4, k5, k6⟩ := mem (by rw [ht]; simp) hR
    obtain ⟨b2, l3, l4⟩ := flagged_upper (p := setFlag o) k5
    exact ⟨t, t, d, d, _, single ht, hd, hd, hw, ⟨_, _, ⟨_, rfl, rfl⟩, ⟨_, rfl, rfl⟩, rfl, rfl, rfl⟩, ⟨_, _, k4, ⟨_, rfl, l3⟩, end_trans k6 l4⟩⟩
  | onFrom1 t ht R hR =>
    obtain ⟨d, hd, ⟨x, x', k1, k2, k3⟩, -⟩ := mem (by rw [ht]; simp) hR
    obtain ⟨a2, l1, l2⟩ := flagged_lower (p := setFlag o) k2
    exact ⟨t, t, d, d, _, single ht, hd, hd, hw, ⟨_, _, k1, ⟨_, rfl, l1⟩, end_trans k3 l2⟩, ⟨_, _, ⟨_, rfl, rfl⟩, ⟨_, rfl, rfl⟩, rfl, rfl, rfl⟩⟩
  | upTo a b ht h2 R S hR hS =>
    obtain ⟨d, hd, ⟨x, x', k1, k2, k3⟩, -⟩ := mem ht.1 hR
    obtain ⟨e, he, -, ⟨y, y', k4, k5, k6⟩⟩ := mem ht.2.1 hS
    obtain ⟨b2, l3, l4⟩ := flagged_upper (p := setFlag o) (R := ⟨b, R.lower, S.upper⟩) k5
    exact ⟨a, b, d, e, _, ht, hd, he, hw, ⟨_, _, ⟨_, rfl, rfl⟩, ⟨_, rfl, rfl⟩, rfl, rfl, rfl⟩, ⟨_, _, k4, ⟨_, rfl, l3⟩, end_trans k6 l4⟩⟩
  | onFrom a b ht h2 R S hR hS =>
    obtain ⟨d, hd, ⟨x, x', k1, k2, k3⟩, -⟩ := mem ht.1 hR
    obtain ⟨e, he, -, ⟨y, y', k4, k5, k6⟩⟩ := mem ht.2.1 hS
    obtain ⟨a2, l1, l2⟩ := flagged_lower (p := setFlag o) (R := ⟨a, R.lower, S.upper⟩) k2
    exact ⟨a, b, d, e, _, ht, hd, he, hw, ⟨_, _, k1, ⟨_, rfl, l1⟩, end_trans k3 l2⟩, ⟨_, _, ⟨_, rfl, rfl⟩, ⟨_, rfl, rfl⟩, rfl, rfl, rfl⟩⟩
  | both a b ht h2 R S hR hS =>
    obtain ⟨d, hd, ⟨x, x', k1, k2, k3⟩, -⟩ := mem ht.1 hR
    obtain ⟨e, he, -, ⟨y, y', k4, k5, k6⟩⟩ := mem ht.2.1 hS
    exact ⟨a, b, d, e, _, ht, hd, he, hw, ⟨_, _, ⟨_, rfl, rfl⟩, ⟨_, rfl, rfl⟩, rfl, rfl, rfl⟩, ⟨_, _, k4, ⟨_, rfl, k5⟩, k6⟩⟩

/-- "[..1670-03,1667]" is open at its start, and ends with March 1670. -/
example : ∃ e w g, parseString (c! "1670-03") = .ok e ∧ parseString (c! "..") = .ok w ∧ parseString (c! "[..1670-03,1667]") = .ok g ∧
    SameStart w g ∧ SameStop e g := by
  obtain ⟨g, hg⟩ : ∃ g, parseString (c! "[..1670-03,1667]") = .ok g := ⟨_, rfl⟩
  have hc : ChunksOk [.upTo [⟨false, 1670, .month 3⟩], .run [⟨false, 1667, .none⟩]] :=
    ⟨by simp [Chunk.ok, RunOk, Date0.shaped], ⟨_, rfl, rfl⟩, by simp [Chunk.later], by simp [Chunk.inner]⟩
  obtain ⟨a, b, d, e, w, hx, -, hb, hw, h1, h2⟩ := C91_set (o := '[') (c := ']') (by decide) hc hg
  have eb : b = c! "1670-03" := by
    rcases (by simpa [Chunk.members] using hx.2.1 : b = _ ∨ b = _) with k | k
    · rw [k]; decide
    · have := (hx.2.2 (c! "1670-03") (by decide)).2
      rw [k] at this
      exact absurd this (by intro h; repeat (first | contradiction | cases h | (rename_i h; revert h; intro h)))
  subst eb
  exact ⟨e, w, g, hb, hw, hg, h1, h2⟩

/-- Two sets with the same members and the same open sides are read alike: the order of the members,
members that are written twice, and two dots instead of a comma make no difference.  (For open sets,
one member is different from several.) -/
theorem C91_alike {o c c' : Char} (hb : Brackets o c) (hb' : Brackets o c') {cs cs' : List Chunk} (hc : ChunksOk cs) (hc' : ChunksOk cs')
    (hm : ∀ t, t ∈ cs.flatMap Chunk.members ↔ t ∈ cs'.flatMap Chunk.members) (hs : cs.any Chunk.opensStart = cs'.any Chunk.opensStart)
    (he : cs.any Chunk.opensEnd = cs'.any Chunk.opensEnd)
    (h1 : cs.any Chunk.opensStart = true ∨ cs.any Chunk.opensEnd = true → ((cs.flatMap Chunk.members).length < 2 ↔ (cs'.flatMap Chunk.members).length < 2))
    {d : EDTFDate} (h : parseString (o :: (commaJoin (cs.map Chunk.text) ++ [c])) = .ok d) :
    parseString (o :: (commaJoin (cs'.map Chunk.text) ++ [c'])) = .ok { d with edtf := o :: (commaJoin (cs'.map Chunk.text) ++ [c']) } := by
  obtain ⟨f, hf⟩ : ∃ f : Int → Nat → Nat → Int, DayCount f := ⟨_, dayCount_unixDay⟩
  obtain ⟨S, E, hS, rfl⟩ := set_result hf hb hc h
  refine (C55_denotes hf _ _).2 (.set o c' hb' cs' hc' S E ?_)
  have ex : ∀ {a b}, Extremes (cs.flatMap Chunk.members) a b → Extremes (cs'.flatMap Chunk.members) a b := fun ⟨h1, h2, h3⟩ =>
    ⟨(hm _).1 h1, (hm _).1 h2, fun t ht => h3 t ((hm t).2 ht)⟩
  rw [← hs, ← he]
  generalize cs.any Chunk.opensStart = so at *
  generalize cs.any Chunk.opensEnd = eo at *
  generalize cs.flatMap Chunk.members = ms at *
  generalize cs'.flatMap Chunk.members = ms' at *
  have one : ∀ {t}, ms = [t] → (so = true ∨ eo = true) → ms' = [t] := by
    intro t e k
    have hl := (h1 k).1 (by simp [e])
    have hin := (hm t).1 (by rw [e]; simp)
    match ms', hl, hin with
    | [u], _, hin => rw [List.mem_singleton.1 hin]
  have two : 2 ≤ ms.length → (so = true ∨ eo = true) → 2 ≤ ms'.length := fun l k => by
    have := h1 k
    omega
  cases hS with
  | one t ht S E hspan => exact .one t (ex ht) S E hspan
  | closed a b ht hab R S hR hS => exact .closed a b (ex ht) hab R S hR hS
  | upTo1 t ht R hR => exact .upTo1 t (one ht (.inl rfl)) R hR
  | onFrom1 t ht R hR => exact .onFrom1 t (one ht (.inr rfl)) R hR
  | upTo a b ht h2 R S hR hS => exact .upTo a b (ex ht) (two h2 (.inl rfl)) R S hR hS
  | onFrom a b ht h2 R S hR hS => exact .onFrom a b (ex ht) (two h2 (.inr rfl)) R S hR hS
  | both a b ht h2 R S hR hS => exact .both a b (ex ht) (two h2 (.inl rfl)) R S hR hS

/-- The order, and a member written twice: "[1670,1667..1668]" and "[1667,1668,1670,1668]". -/
example : ∃ d, parseString (c! "[1670,1667..1668]") = .ok d ∧ parseString (c! "[1667,1668,1670,1668]") = .ok { d with edtf := c! "[1667,1668,1670,1668]" } := by
  obtain ⟨d, hd⟩ : ∃ d, parseString (c! "[1670,1667..1668]") = .ok d := ⟨_, rfl⟩
  have ok : ∀ n, n < 10000 → RunOk [⟨false, n, .none⟩] := fun n h => ⟨by simp, by simpa [Date0.shaped] using h⟩
  refine ⟨d, hd, ?_⟩
  have c1 : ChunksOk [.run [⟨false, 1670, .none⟩], .pair [⟨false, 1667, .none⟩] [⟨false, 1668, .none⟩]] :=
    ⟨by simp [Chunk.ok, ok], ⟨_, rfl, rfl⟩, by simp [Chunk.later], by simp [Chunk.inner]⟩
  have c2 : ChunksOk [.run [⟨false, 1667, .none⟩], .run [⟨false, 1668, .none⟩], .run [⟨false, 1670, .none⟩], .run [⟨false, 1668, .none⟩]] :=
    ⟨by simp [Chunk.ok, ok], ⟨_, rfl, rfl⟩, by simp [Chunk.later], by simp [Chunk.inner]⟩
  exact C91_alike (o := '[') (c := ']') (c' := ']') (by decide) (by decide) c1 c2
    (by intro t; simp [Chunk.members]; grind) rfl rfl (by decide) hd

theorem join_not {x : Char} (h1 : isDig x = false) (h2 : x ≠ '-') (h3 : x ≠ '.') (h4 : x ≠ ',') (cs : List Chunk) : x ∉ commaJoin (cs.map Chunk.text) := by
  have hr : ∀ r : List Date0, x ∉ runText r := fun r => runText_not_mem r h1 h2
  have hk : ∀ k : Chunk, x ∉ k.text := by intro k; cases k <;> simp [Chunk.text, hr, h3]
  induction cs with
  | nil => simp [commaJoin]
  | cons k cs ih =>
    cases cs with
    | nil => simpa [commaJoin] using hk k
    | cons b cs =>
      rw [List.map_cons, commaJoin_cons _ (by simp)]
      simp only [List.mem_append, List.mem_cons, not_or]
      exact ⟨hk k, h4, ih⟩

/-- The first letter of the name of a season. -/
theorem named_letter {s : Str} (h : IsNamed s) : ∃ x ∈ s, isDig x = false ∧ x ≠ '-' ∧ x ≠ '.' ∧ x ≠ ',' := by
  obtain ⟨z, w, t1, t2, n, ⟨hl, hw⟩, -, -, rfl⟩ := h
  obtain ⟨v0, v, ev⟩ : ∃ v0 v, z.word = v0 :: v := by cases z <;> exact ⟨_, _, rfl⟩
  have hv0 : v0 ∈ c! "sfaw" := by cases z <;> cases ev <;> decide
  rw [ev] at hl hw
  cases w with
  | nil => cases hl
  | cons x w =>
    refine ⟨x, by simp, ?_⟩
    have cases4 : ∀ {P : Char → Prop}, P 's' → P 'f' → P 'a' → P 'w' → P v0 := by
      intro P a b c d
      simp only [List.mem_cons, List.not_mem_nil, or_false] at hv0
      rcases hv0 with k | k | k | k <;> rw [k] <;> assumption
    rcases hw (v0, x) (by simp) with k | k | ⟨-, k⟩
    · simp only at k
      subst k
      exact cases4 (P := fun x => isDig x = false ∧ x ≠ '-' ∧ x ≠ '.' ∧ x ≠ ',') (by decide) (by decide) (by decide) (by decide)
    · simp only at k
      subst k
      exact cases4 (P := fun x => isDig (Char.ofNat (x.toNat - 32)) = false ∧ Char.ofNat (x.toNat - 32) ≠ '-' ∧ Char.ofNat (x.toNat - 32) ≠ '.' ∧
        Char.ofNat (x.toNat - 32) ≠ ',') (by decide) (by decide) (by decide) (by decide)
    · simp only at k
      subst k
      decide

/-- A chunk without dots that may be the first is a run. -/
theorem dotless_chunk {k : Chunk} (hf : k.first = true) (h : '.' ∉ k.text) : ∃ r, k = .run r := by
  cases k with
  | run r => exact ⟨r, rfl⟩
  | blank => cases hf
  | dots => cases hf
  | _ => simp [Chunk.text] at h

/-- A date in brackets means the same time as the date. -/
theorem C91_single {o c : Char} (hb : Brackets o c) {s : Str} {d g : EDTFDate} (hs : parseString s = .ok d) (h : parseString (o :: (s ++ [c])) = .ok g) :
    SameTime d g := by
  obtain ⟨cs, hc, hm, e⟩ := accepted_set hb ((C54_language _).1 ⟨g, h⟩)
  have key : noSign s = true → SameTime d g := by
    intro k
    obtain ⟨x, rfl, ex⟩ := one_chunk hc (noSign_not k (by decide)) e
    obtain ⟨x', h1, h2⟩ := hc.2.1
    cases h1
    obtain ⟨r, rfl⟩ := dotless_chunk h2 (ex ▸ noSign_not k (by decide))
    rw [e] at h
    obtain ⟨a, b, d', e', w, hx, ha, hb', -, h1, h2⟩ := C91_set hb hc h
    have ea : a = s := by rw [ex]; simpa [Chunk.members, Chunk.text] using hx.1
    have eb : b = s := by rw [ex]; simpa [Chunk.members, Chunk.text] using hx.2.1
    subst ea eb
    rw [hs] at ha hb'
    cases ha
    cases hb'
    exact ⟨h1, h2⟩
  have first : ∀ {t : Str}, s = t → ',' ∉ t → ∃ k : Chunk, k.ok ∧ k.first = true ∧ s = k.text := by
    rintro t rfl hn
    obtain ⟨x, rfl, ex⟩ := one_chunk hc hn e
    obtain ⟨x', h1, h2⟩ := hc.2.1
    cases h1
    exact ⟨x, hc.1 _ (by simp), h2, ex⟩
  rcases accepted_class ((C54_language _).1 ⟨d, hs⟩) with k | k | k | ⟨o', c', cs', hb', -, -, k⟩ | k | k
  · exact key (by rw [k]; rfl)
  · exfalso
    obtain ⟨x, hx, hx1, ex⟩ := first k (by decide)
    rw [k] at ex
    cases x with
    | run r => exact runText_not_mem r (c := '.') (by decide) (by decide) (by rw [show runText r = _ from ex.symm]; simp)
    | pair r r' =>
      obtain ⟨u, v, hr⟩ := List.exists_cons_of_ne_nil (runText_ne_nil hx.1)
      have := congrArg List.length ex
      simp [Chunk.text, hr] at this
      omega
    | upTo r =>
      obtain ⟨u, v, hr⟩ := List.exists_cons_of_ne_nil (runText_ne_nil hx)
      have := congrArg List.length ex
      simp [Chunk.text, hr] at this
    | onFrom r =>
      obtain ⟨u, v, hr⟩ := List.exists_cons_of_ne_nil (runText_ne_nil hx)
      have := congrArg List.length ex
      simp [Chunk.text, hr] at this
    | blank => cases hx1
    | dots => cases hx1
  · rw [e] at k
    exact absurd k (join_not (by decide) (by decide) (by decide) (by decide) cs)
  · have : o' ∈ s := by rw [k]; simp
    rw [e] at this
    rcases hb'.1 with rfl | rfl <;> exact absurd this (join_not (by decide) (by decide) (by decide) (by decide) cs)
  · obtain ⟨x, hx, x1, x2, x3, x4⟩ := named_letter k
    rw [e] at hx
    exact absurd hx (join_not x1 x2 x3 x4 cs)
  · exact key k

example : ∃ d g, parseString (c! "-0480-02") = .ok d ∧ parseString (c! "{-0480-02]") = .ok g ∧ SameTime d g :=
  ⟨_, _, rfl, rfl, C91_single (o := '{') (c := ']') (s := c! "-0480-02") (by decide) rfl rfl⟩

/-- Two dots between two dates in a set are read as a comma. -/
theorem C91_dots {o c : Char} (hb : Brackets o c) {s t : Str} (h1 : s ≠ []) (h2 : t ≠ []) (h3 : '.' ∉ s ∧ ',' ∉ s) (h4 : '.' ∉ t ∧ ',' ∉ t) {d : EDTFDate}
    (h : parseString (o :: (s ++ c! ".." ++ t ++ [c])) = .ok d) : parseString (o :: (s ++ c! "," ++ t ++ [c])) = .ok { d with edtf := o :: (s ++ c! "," ++ t ++ [c]) } := by
  obtain ⟨cs, hc, hm, e⟩ := accepted_set hb ((C54_language _).1 ⟨d, h⟩)
  obtain ⟨x, rfl, ex⟩ := one_chunk hc (by simp [h3, h4]) e
  have hx := hc.1 x (by simp)
  have nd : ∀ r, '.' ∉ runText r := fun r => runText_not_mem r (by decide) (by decide)
  have ex' : s ++ '.' :: ('.' :: t) = x.text := by rw [← ex]; simp
  obtain ⟨r, r', rfl⟩ : ∃ r r', x = .pair r r' := by
    obtain ⟨x', k1, k2⟩ := hc.2.1
    cases k1
    cases x with
    | run r =>
      have ex' : s ++ '.' :: ('.' :: t) = runText r := ex'
      exact absurd (by rw [← ex']; simp) (nd r)
    | pair r r' => exact ⟨r, r', rfl⟩
    | upTo r =>
      have ex' : s ++ '.' :: ('.' :: t) = [] ++ '.' :: ('.' :: runText r) := ex'
      have := (char_split h3.1 (by simp) ex').1
      exact absurd this h1
    | onFrom r =>
      have ex' : s ++ '.' :: ('.' :: t) = runText r ++ '.' :: ['.'] := ex'
      have := (List.cons.inj (char_split h3.1 (nd r) ex').2).2
      exact absurd this h2
    | blank => cases k2
    | dots => cases k2
  have ex' : s ++ '.' :: ('.' :: t) = runText r ++ '.' :: ('.' :: runText r') := ex'
  obtain ⟨e1, e2⟩ := char_split h3.1 (nd r) ex'
  have e2 := (List.cons.inj e2).2
  clear ex ex' e hm h1 h2 h3 h4
  subst e1 e2
  have e1 : o :: (runText r ++ c! ".." ++ runText r' ++ [c]) = o :: (commaJoin ([Chunk.pair r r'].map Chunk.text) ++ [c]) := by simp [commaJoin, Chunk.text]
  have e2 : o :: (runText r ++ c! "," ++ runText r' ++ [c]) = o :: (commaJoin ([Chunk.run r, Chunk.run r'].map Chunk.text) ++ [c]) := by simp [commaJoin, Chunk.text]
  rw [e1] at h
  rw [e2]
  exact C91_alike hb hb hc (chunks_runs hx.1 hx.2) (by intro t; simp [Chunk.members]) rfl rfl (by simp [Chunk.opensStart, Chunk.opensEnd]) h

example : ∃ d, parseString (c! "[1667-12..1760-01-05]") = .ok d ∧ parseString (c! "[1667-12,1760-01-05]") = .ok { d with edtf := c! "[1667-12,1760-01-05]" } :=
  ⟨_, rfl, C91_dots (o := '[') (c := ']') (s := c! "1667-12") (t := c! "1760-01-05") (by decide) (by decide) (by decide) (by decide) (by decide) rfl⟩

/-! ### Letters -/

/-- The letter before a year makes no difference to its time. -/
theorem C91_letter {s : Str} {d g : EDTFDate} (hs : parseString s = .ok d) (h : parseString ('Y' :: s) = .ok g) : SameTime d g := by
  obtain ⟨f, hf⟩ : ∃ f : Int → Nat → Nat → Int, DayCount f := ⟨_, dayCount_unixDay⟩
  have As := (C54_language _).1 ⟨d, hs⟩
  have Ds := (C55_denotes hf _ _).1 hs
  have Dg := (C55_denotes hf _ _).1 h
  have hw : ∀ {z : Season} {w t1 t2 : Str} {n : Nat}, Folded z.word w → Blank t1 → Blank t2 → 'Y' :: s = w ++ (t1 ++ ',' :: (t2 ++ pad4 n)) → False := by
    intro z w t1 t2 n hw h1 h2 e
    have hY : 'Y' ∈ w := by
      cases w with
      | nil => have := hw.1; cases z <;> cases this
      | cons x w => injection e with e _; rw [e]; simp
    exact folded_not hw (by decide) (by cases z <;> decide) hY
  generalize es : 'Y' :: s = s' at *
  rcases accepted_letters ((C54_language _).1 ⟨g, h⟩) with k | ⟨z, w, t1, t2, n, k1, k2, k3, k⟩ | k | ⟨neg, n, ds, hn, hd, k⟩
  · exact absurd (by rw [← es]; simp) (k 'Y' (by decide))
  · exact (hw k1 k2 k3 k).elim
  · cases k with
    | year neg n hn =>
      injection es with _ es
      subst es
      rw [show signed neg (pad4 n) = (⟨neg, n, .none⟩ : Date0).text by cases neg <;> rfl] at *
      cases C55_unique hf Ds (.date ⟨neg, n, .none⟩ ⟨hn, trivial⟩)
      cases C55_unique hf Dg (.letter neg n hn)
      exact timed_same timed_result timed_result
    | «notation» yc ec hy he neg ms hm u =>
      exfalso
      injection es with _ es
      obtain ⟨a, as, rfl⟩ := List.exists_cons_of_ne_nil hm.1
      obtain ⟨x, t, e1, e2⟩ := signed_head neg (as := as) (hm.2 a (by simp)) (ec :: u)
      have hec : ec = 'E' ∨ ec = 'e' := by simpa using he
      obtain ⟨neg', n, ds, hn, hd, e3⟩ := accepted_numeric As (es.trans e1) e2 (y := ec) (by rcases hec with rfl | rfl <;> decide) (by rw [es]; cases neg <;> simp [signed])
      have : ec ∈ s := by rw [es]; cases neg <;> simp [signed]
      rw [e3] at this
      rcases List.mem_append.1 this with k | k
      · exact unl_signed (unl_pad n).1 ec (by rcases hec with rfl | rfl <;> decide) k
      · rcases List.mem_cons.1 k with k | k
        · rcases hec with rfl | rfl <;> revert k <;> decide
        · have := unl_digits (s := ds.map dig) (by
            rw [List.all_eq_true]
            intro c hc
            obtain ⟨j, hj, rfl⟩ := List.mem_map.1 hc
            exact (by decide : ∀ j < 10, isDig (dig j) = true) j (hd.2 j hj))
          exact this ec (by rcases hec with rfl | rfl <;> decide) k
    | significant neg us hu hl ds hd hk =>
      injection es with _ es
      obtain ⟨a, as, rfl⟩ := List.exists_cons_of_ne_nil hu.1
      obtain ⟨x, t, e1, e2⟩ := signed_head neg (as := as) (hu.2 a (by simp)) ('S' :: ds.map dig)
      have e0 : signed neg ((a :: as).map dig) ++ 'S' :: ds.map dig = signed neg ((a :: as).map dig ++ 'S' :: ds.map dig) := by cases neg <;> rfl
      obtain ⟨neg', n, ds', hn, hd', e3⟩ := accepted_numeric As (es.trans (e0.trans e1)) e2 (y := 'S') (by decide) (by rw [es]; simp)
      have nS : 'S' ∉ signed neg ((a :: as).map dig) := by
        have : Unlettered ((a :: as).map dig) := fun c hc hm => by
          obtain ⟨j, hj, e⟩ := List.mem_map.1 hm
          have := (by decide : ∀ j < 10, dig j ∉ c! "EeSYy") j (hu.2 j hj)
          rw [e] at this
          exact this hc
        exact unl_signed this 'S' (by decide)
      obtain ⟨e4, e5⟩ := char_split nS (unl_signed (unl_pad n).1 'S' (by decide)) (es.symm.trans e3)
      obtain ⟨p, _, q, ep, hp, -⟩ := pad4_head n
      cases neg' with
      | true =>
        rw [e4] at hl
        simp [signed, pad4_length] at hl
      | false =>
        cases neg with
        | true =>
          rw [ep] at e4
          simp only [signed, if_true, Bool.false_eq_true, if_false, List.cons.injEq] at e4
          rw [← e4.1] at hp
          exact absurd hp (by decide)
        | false =>
          have ev : value10 (a :: as) = n := by
            rw [← digitsVal_map _ hu.2, ← digitsVal_pad4 n hn]
            exact congrArg digitsVal e4
          obtain ⟨y, z, hyz⟩ := sig_denotes hk
          have Dg' := Denotes.significant (f := f) _ _ (.letter false (a :: as) hu hl) ds hd y z hyz
          cases C55_unique hf Dg Dg'
          rw [show (if false = true then -(value10 (a :: as) : Int) else value10 (a :: as)) = (if false = true then -(n : Int) else n) by rw [ev]] at hyz
          have Ds' := Denotes.significant (f := f) _ _ (.date false n hn) ds hd y z hyz
          rw [← e4, ← es] at Ds'
          cases C55_unique hf Ds Ds'
          exact ⟨⟨_, _, ⟨_, rfl, rfl⟩, ⟨_, rfl, rfl⟩, rfl, rfl, rfl⟩, ⟨_, _, ⟨_, rfl, rfl⟩, ⟨_, rfl, rfl⟩, rfl, rfl, rfl⟩⟩
  · exfalso
    rw [← es] at k
    obtain ⟨p, _, q, ep, hp, -⟩ := pad4_head n
    rw [ep] at k
    cases neg
    · simp only [signed, Bool.false_eq_true, if_false, List.cons_append, List.cons.injEq] at k
      rw [← k.1] at hp
      revert hp
      decide
    · simp [signed] at k

example : ∃ d g, parseString (c! "-1985") = .ok d ∧ parseString (c! "Y-1985") = .ok g ∧ SameTime d g :=
  ⟨_, _, rfl, rfl, C91_letter (s := c! "-1985") rfl rfl⟩

example : ∃ d g, parseString (c! "1950S2") = .ok d ∧ parseString (c! "Y1950S2") = .ok g ∧ SameTime d g :=
  ⟨_, _, rfl, rfl, C91_letter (s := c! "1950S2") rfl rfl⟩

/-! ### Components without digits -/

theorem ten_length {s : Str} (h : TenDays s) : s.length = 10 := by
  obtain ⟨n, m, k, -, -, -, -, rfl⟩ := h
  simp [pad4_length, pad2]

theorem ten_last {s t : Str} (h : TenDays s) : s ≠ t ++ c! "XX" := by
  obtain ⟨n, m, k, -, -, -, h4, rfl⟩ := h
  intro e
  have e : (pad4 n ++ '-' :: (pad2 m ++ ['-'])) ++ [k, 'X'] = t ++ ['X', 'X'] := by simpa using e
  obtain ⟨-, e2⟩ := List.append_inj' e rfl
  cases e2
  revert h4
  decide

/-- A month or a day without digits can be left out: "2004-XX" means the same time as "2004", and
"~1985/2004-05-XX" the same as "~1985/2004-05". -/
theorem C91_any {s : Str} {e : EDTFDate} (h : parseString (s ++ c! "-XX") = .ok e) : ∃ d, parseString s = .ok d ∧ SameTime d e := by
  obtain ⟨f, hf⟩ : ∃ f : Int → Nat → Nat → Int, DayCount f := ⟨_, dayCount_unixDay⟩
  have A := (C54_language _).1 ⟨e, h⟩
  have D := (C55_denotes hf _ _).1 h
  have close : ∀ {d e' : EDTFDate} {l u : Int}, Denotes f s d → Timed d l u → Denotes f (s ++ c! "-XX") e' → Timed e' l u → ∃ d, parseString s = .ok d ∧ SameTime d e := by
    intro d e' l u h1 h2 h3 h4
    cases C55_unique hf D h3
    exact ⟨d, (C55_denotes hf _ _).2 h1, timed_same h2 h4⟩
  by_cases hs : '/' ∈ s
  · obtain ⟨l, r, rfl, hl⟩ := List.eq_append_cons_of_mem hs
    rw [List.append_assoc, List.cons_append] at A
    rcases accepted_slash hl A with ⟨a, b, ha, hb, ra, rb, rfl, eb⟩ | ⟨ht, x, hx, ex⟩ | ⟨ht, -⟩
    · obtain ⟨y1, y2, m1, m2, d1, d2, hra⟩ := readable_runs ha
      obtain ⟨z1, z2, n1, n2, c1, c2, hrb⟩ := readable_runs hb
      obtain ⟨b', s1, s2, rfl, -, -, -, -, -, -, hr⟩ := xx_drop hb.1 rb eb.symm
      obtain ⟨g, D1, T1⟩ := pair_time (f := f) ha.1 s1 ra s2 hra (hr hrb)
      obtain ⟨g', D2, T2⟩ := pair_time (f := f) ha.1 hb.1 ra rb hra hrb
      refine close D1 T1 ?_ T2
      rw [List.append_assoc, List.cons_append, eb]
      exact D2
    · exact absurd (by rw [← ex]; simp) (date_noX x)
    · rcases ht with k | k
      · simp at k
      · exact absurd (congrArg (fun t => decide ('X' ∈ t)) k) (by simp)
  · have key : ∀ {x : Endpoint}, x.Readable → x.date.neg = false → x.qy = .none ∧ x.qm = .none ∧ x.qd = .none → x.text = s ++ c! "-XX" → ∃ d, parseString s = .ok d ∧ SameTime d e := by
      intro x hx hn ⟨q1, q2, q3⟩ ex
      have hr : noRight x.qy x.qm x.qd := by
        rw [q1, q2, q3]
        intro q hq
        rcases (by simpa using hq : q = .none) with rfl
        rfl
      obtain ⟨y1, y2, m1, m2, d1, d2, hruns⟩ := readable_runs hx
      obtain ⟨x', s1, s2, rfl, s3, s4, s5, s6, s7, -, hr'⟩ := xx_drop hx.1 hr ex
      obtain ⟨d, D1, T1⟩ := alone_time hf s1 s2 (.inr ⟨s3.trans hn, fun _ => ⟨s4.trans q1, s5 q2, s6⟩⟩) (hr' hruns)
      obtain ⟨e', D2, T2⟩ := alone_time hf hx.1 hr (.inr ⟨hn, fun _ => ⟨q1, q2, q3⟩⟩) hruns
      have n2 : ¬ TenDays x.text := fun k => ten_last (t := x'.text ++ ['-']) k (by rw [ex]; simp)
      have n1 : ¬ TenDays x'.text := by
        intro k
        have k1 := ten_length k
        have k3 := congrArg List.length ex
        rw [List.length_append, k1] at k3
        obtain ⟨⟨neg, yy, tl⟩, qy, qm, qd⟩ := x
        simp only at q1 q2 q3 hn
        subst q1 q2 q3 hn
        obtain ⟨hl, -, hx'⟩ := hx.1.1
        simp only at hl
        cases tl with
        | none => simp [Endpoint.text, Deco.text, hl] at k3
        | month m => simp [Endpoint.text, Deco.text, hl, hx'.1] at k3
        | day m d => simp [Endpoint.text, Deco.text, hl, hx'.1, hx'.2.2.1] at k3
      rcases T1 with ⟨-, T1⟩ | ⟨k, -⟩
      · rcases T2 with ⟨-, T2⟩ | ⟨k, -⟩
        · exact close D1 T1 (ex ▸ D2) T2
        · exact absurd k n2
      · exact absurd k n1
    have last : ∀ {u : Str} {q : Char}, q ∈ c! "?~%" → s ++ c! "-XX" ≠ u ++ [q] := by
      intro u q hq k
      have k : (s ++ ['-', 'X']) ++ ['X'] = u ++ [q] := by simpa using k
      obtain ⟨-, k⟩ := List.append_inj' k rfl
      cases k
      revert hq
      decide
    rcases accepted_marked A with k | k | k
    · exact absurd (by simp) (k 'X' (by decide))
    · exfalso
      simp [hs] at k
    · generalize ex : s ++ c! "-XX" = t at k
      cases k with
      | year neg n hn q hq => exact absurd ex (last hq)
      | single x hx hn hq hX => exact key hx hn (hX (by rw [← ex]; simp)) ex.symm
      | month neg n m hn h1 h2 hy q hq => exact absurd (ex.trans (by simp : _ = (signed neg (pad4 n) ++ '-' :: pad2 m) ++ [q])) (last hq)
      | day neg n m hn h1 h2 hy d d1 d2 q hq =>
        exact absurd (ex.trans (by simp : _ = (signed neg (pad4 n) ++ '-' :: (pad2 m ++ '-' :: pad2 d)) ++ [q])) (last hq)
      | loose n m hn h1 h2 a b hl =>
        have e2 : s ++ ['-', 'X', 'X'] = (pad4 n ++ '-' :: pad2 m) ++ ['-', a, b] := by simpa using ex
        obtain ⟨-, e2⟩ := List.append_inj' e2 rfl
        cases e2
        have V : Valid n m 1 := ⟨h1, h2, Nat.le_refl 1, by have := (monthLen_pos n m).1; omega⟩
        refine key (x := ⟨⟨false, pad4 n, .day (pad2 m) (c! "XX")⟩, .none, .none, .none⟩) ⟨⟨⟨pad4_length n, ?_, rfl, ?_, rfl, ?_⟩, rfl, rfl, rfl, trivial⟩, n, n, m, m, 1, monthLen n m, .digits false n hn, .digits m h1 h2, .any, V, last_valid V⟩ rfl
          ⟨rfl, rfl, rfl⟩ (by rw [endpoint_plain]; simpa [XDate.text] using ex.symm)
        · exact fun c hc => .inr ((isDig_iff c).1 (List.all_eq_true.1 (pad4_all n) c hc))
        · exact fun c hc => .inr ((isDig_iff c).1 (List.all_eq_true.1 (pad2_all m) c hc))
        · intro c hc
          exact .inl (by simpa using hc)

example : ∃ d e, parseString (c! "~1985/2004-05") = .ok d ∧ parseString (c! "~1985/2004-05-XX") = .ok e ∧ SameTime d e := by
  obtain ⟨e, he⟩ : ∃ e, parseString (c! "~1985/2004-05-XX") = .ok e := ⟨_, rfl⟩
  obtain ⟨d, hd, h⟩ := C91_any (s := c! "~1985/2004-05") he
  exact ⟨d, e, hd, he, h⟩

/-! ### Qualifiers -/

theorem unq_append (s t : Str) : unqualified (s ++ t) = unqualified s ++ unqualified t := List.filter_append ..

theorem unq_cons {x : Char} (t : Str) (h : x ∉ c! "?~%") : unqualified (x :: t) = x :: unqualified t :=
  List.filter_cons_of_pos (by simpa using h)

theorem unq_drop {x : Char} (t : Str) (h : x ∈ c! "?~%") : unqualified (x :: t) = unqualified t :=
  List.filter_cons_of_neg (by rcases (by simpa using h : x = '?' ∨ x = '~' ∨ x = '%') with rfl | rfl | rfl <;> decide)

theorem unq_self {s : Str} (h : ∀ c ∈ s, c ∉ c! "?~%") : unqualified s = s :=
  List.filter_eq_self.2 fun c hc => by simpa using h c hc

theorem unq_unmarked {s : Str} (h : Unmarked s) : unqualified s = s :=
  unq_self fun c hc k => h c (List.mem_cons_of_mem _ k) hc

theorem unq_deco {q : Deco} {w : Str} (h : q.ok = true) : unqualified (q.text w) = unqualified w := by
  have mem : ∀ {c : Char}, (c == '?' || c == '~' || c == '%') = true → c ∈ c! "?~%" := fun h => by simpa [or_assoc] using h
  cases q with
  | none => rfl
  | left q => exact unq_drop w (mem h)
  | right q =>
    show unqualified (w ++ [q]) = _
    rw [unq_append, unq_drop [] (mem h)]
    exact List.append_nil _

/-- A date with qualifiers, without them. -/
theorem unq_endpoint {e : Endpoint} (h : e.shape) : unqualified e.text = e.date.text := by
  have hx : unqualified e.date.text = e.date.text := unq_self fun c hc k => by
    have : isQ c = false := xtext_no_qual h.1 hc
    rcases (by simpa using k : c = '?' ∨ c = '~' ∨ c = '%') with rfl | rfl | rfl <;> cases this
  rw [← hx]
  obtain ⟨⟨neg, yy, tl⟩, qy, qm, qd⟩ := e
  obtain ⟨-, o1, o2, o3, -⟩ := h
  rw [xtext]
  unfold Endpoint.text sgn
  cases tl with
  | none => simp [unq_deco o1]
  | month m => simp [unq_append, unq_deco o1, unq_deco o2, unq_cons (x := '-') _ (by decide)]
  | day m d => simp [unq_append, unq_deco o1, unq_deco o2, unq_deco o3, unq_cons (x := '-') _ (by decide)]

theorem text_signed (neg : Bool) (n : Nat) : (⟨neg, n, .none⟩ : Date0).text = signed neg (pad4 n) := by
  cases neg <;> simp [Date0.text, Date0.qtext, Deco.text, signed]

theorem text_month (neg : Bool) (n m : Nat) : (⟨neg, n, .month m⟩ : Date0).text = signed neg (pad4 n) ++ '-' :: pad2 m := by
  cases neg <;> simp [Date0.text, Date0.qtext, Deco.text, signed]

theorem text_day (neg : Bool) (n m d : Nat) : (⟨neg, n, .day m d⟩ : Date0).text = signed neg (pad4 n) ++ '-' :: (pad2 m ++ '-' :: pad2 d) := by
  cases neg <;> simp [Date0.text, Date0.qtext, Deco.text, signed]

/-- A day with a qualifier at its end has no other, and no slash. -/
theorem qualifiedDay_form {s : Str} (h : QualifiedDay s) : ∃ w d q, s = w ++ '-' :: pad2 d ++ [q] ∧ 1 ≤ d ∧ d ≤ 31 ∧ q ∈ c! "?~%" ∧ Unmarked (w ++ '-' :: pad2 d) ∧ '/' ∉ s ∧ 11 ≤ s.length := by
  obtain ⟨neg, n, m, d, q, hn, h1, h2, d1, d2, hq, rfl⟩ := h
  have hd : ∀ w : Str, w.all isDig = true → '/' ∉ w := fun w hw hm => by
    have := List.all_eq_true.1 hw _ hm
    revert this
    decide
  refine ⟨signed neg (pad4 n) ++ '-' :: pad2 m, d, q, by simp, d1, d2, hq, ?_, ?_, ?_⟩
  · exact unm_append (unm_append (unm_signed (unm_pad n).1) (unm_cons (by decide) (unm_pad m).2)) (unm_cons (by decide) (unm_pad d).2)
  · have k4 := hd _ (pad4_all n)
    have k2 := fun n => hd _ (pad2_all n)
    have kq : '/' ≠ q := by rintro rfl; revert hq; decide
    cases neg <;> simp [signed, k4, k2, kq]
  · cases neg <;> simp [signed, pad4_length, pad2]

/-- A text means the same time without its qualifiers, unless it is a day with a qualifier at its
end, which is read as its month. -/
theorem C91_qualifiers {s : Str} {d : EDTFDate} {q : Char} (hs : parseString s = .ok d) (hq : q ∈ c! "?~%") (hm : q ∈ s) :
    (∃ e, parseString (unqualified s) = .ok e ∧ SameTime d e) ↔ ¬ QualifiedDay s := by
  obtain ⟨f, hf⟩ : ∃ f : Int → Nat → Nat → Int, DayCount f := ⟨_, dayCount_unixDay⟩
  have A := (C54_language _).1 ⟨d, hs⟩
  have D := (C55_denotes hf _ _).1 hs
  have marked : ¬ Unmarked s := fun k => k q (List.mem_cons_of_mem _ hq) hm
  have same : ∀ {d' e' : EDTFDate} {l u : Int} {t : Str}, Denotes f s d' → Timed d' l u → unqualified s = t → Denotes f t e' → Timed e' l u → ¬ QualifiedDay s →
      ((∃ e, parseString (unqualified s) = .ok e ∧ SameTime d e) ↔ ¬ QualifiedDay s) := by
    intro d' e' l u t h1 h2 h3 h4 h5 h6
    cases C55_unique hf D h1
    exact ⟨fun _ => h6, fun _ => ⟨e', by rw [h3]; exact (C55_denotes hf _ _).2 h4, timed_same h2 h5⟩⟩
  have short : s.length < 11 → ¬ QualifiedDay s := by
    intro k h
    obtain ⟨_, _, _, -, -, -, -, -, -, h⟩ := qualifiedDay_form h
    omega
  have inner : ∀ {u v : Str} {p : Char}, s = u ++ p :: v → v ≠ [] → p ∈ c! "?~%" → ¬ QualifiedDay s := by
    intro u v p e hv hp h
    obtain ⟨w, k, q', e', -, -, -, hw, -⟩ := qualifiedDay_form h
    rw [e, ← List.dropLast_concat_getLast hv] at e'
    have e' : (u ++ p :: v.dropLast) ++ [v.getLast hv] = (w ++ '-' :: pad2 k) ++ [q'] := by simpa using e'
    obtain ⟨e', -⟩ := List.append_inj' e' rfl
    exact hw p (List.mem_cons_of_mem _ hp) (by rw [← e']; simp)
  have year : ∀ (neg : Bool) (n : Nat) (q : Char), n < 10000 → q ∈ c! "?~%" → s = signed neg (pad4 n) ++ [q] →
      ((∃ e, parseString (unqualified s) = .ok e ∧ SameTime d e) ↔ ¬ QualifiedDay s) := by
    intro neg n q hn hq e
    have D1 := Denotes.qualifiedYear (f := f) neg n hn q hq
    have e' : (⟨neg, n, .none⟩ : Date0).text ++ [q] = s := by rw [text_signed, e]
    rw [e'] at D1
    refine same D1 timed_result ?_ (.date ⟨neg, n, .none⟩ ⟨hn, trivial⟩) timed_result (short ?_)
    · rw [← e', unq_append, unq_drop [] hq, unq_unmarked (unm_date _)]
      exact List.append_nil _
    · rw [e]
      cases neg <;> simp [signed, pad4_length]
  have month : ∀ (neg : Bool) (n m : Nat) (q : Char), n < 10000 → 1 ≤ m → m ≤ 12 → SeasonYear (if neg then -(n : Int) else n) → q ∈ c! "?~%" →
      s = signed neg (pad4 n) ++ '-' :: (pad2 m ++ [q]) → ((∃ e, parseString (unqualified s) = .ok e ∧ SameTime d e) ↔ ¬ QualifiedDay s) := by
    intro neg n m q hn h1 h2 hy hq e
    have D1 := Denotes.month (f := f) neg n m hn h1 h2 _ rfl hy [q] (.qualifier neg q hq)
    rw [← e] at D1
    refine same D1 timed_months ?_ (.date ⟨neg, n, .month m⟩ ⟨hn, h1, h2⟩) timed_result (short ?_)
    · have e' : s = (⟨neg, n, .month m⟩ : Date0).text ++ [q] := by rw [text_month, e]; simp
      rw [e', unq_append, unq_drop [] hq, unq_unmarked (unm_date _)]
      exact List.append_nil _
    · rw [e]
      cases neg <;> simp [signed, pad4_length, pad2]
  have day : ∀ (neg : Bool) (n m k : Nat) (q : Char), n < 10000 → 1 ≤ m → m ≤ 12 → 1 ≤ k → k ≤ 31 → SeasonYear (if neg then -(n : Int) else n) → q ∈ c! "?~%" →
      s = signed neg (pad4 n) ++ '-' :: (pad2 m ++ '-' :: (pad2 k ++ [q])) → ((∃ e, parseString (unqualified s) = .ok e ∧ SameTime d e) ↔ ¬ QualifiedDay s) := by
    intro neg n m k q hn h1 h2 k1 k2 hy hq e
    have D1 := Denotes.month (f := f) neg n m hn h1 h2 _ rfl hy _ (.dayQualifier neg k k1 k2 q hq)
    rw [← e] at D1
    have ed := C55_unique hf D D1
    have td : Timed d _ _ := ed ▸ timed_months
    refine ⟨?_, fun h => absurd ⟨neg, n, m, k, q, hn, h1, h2, k1, k2, hq, e⟩ h⟩
    rintro ⟨g, hg, st⟩
    exfalso
    have eu : unqualified s = (⟨neg, n, .day m k⟩ : Date0).text := by
      have e' : s = (⟨neg, n, .day m k⟩ : Date0).text ++ [q] := by rw [text_day, e]; simp
      rw [e', unq_append, unq_drop [] hq, unq_unmarked (unm_date _)]
      exact List.append_nil _
    rw [eu] at hg
    have V : Valid (if neg then -(n : Int) else n) m k := by
      refine C05_accepts_only_days neg hn h1 h2 k1 k2 (r := g) ?_
      rw [← hg, text_day]
      cases neg <;> simp [signed]
    have hz : (⟨neg, n, .day m k⟩ : Date0).ok := ⟨hn, V⟩
    have tg : Timed g _ _ := C55_unique hf ((C55_denotes hf _ _).1 hg) (.date _ hz) ▸ timed_result
    obtain ⟨t1, t2⟩ := same_timed td tg st
    have t1 : 86400 * f (if neg then -(n : Int) else n) m 1 = 86400 * f (if neg then -(n : Int) else n) m k := t1
    have t2 : 86400 * f (if neg then -(n : Int) else n) m (monthLen (if neg then -(n : Int) else n) m) + 86399 = 86400 * f (if neg then -(n : Int) else n) m k + 86399 := t2
    have u1 := (day_unique hf (first_valid V) V (by omega)).2.2
    have u2 := (day_unique hf (last_valid V) V (by omega)).2.2
    have := (monthLen_pos (if neg then -(n : Int) else n) m).1
    omega
  by_cases hsl : '/' ∈ s
  · have nq : ¬ QualifiedDay s := fun h => by
      obtain ⟨_, _, _, -, -, -, -, -, h, -⟩ := qualifiedDay_form h
      exact h hsl
    obtain ⟨l, r, rfl, hl⟩ := List.eq_append_cons_of_mem hsl
    rcases accepted_slash hl A with ⟨a, b, ha, hb, ra, rb, rfl, rfl⟩ | ⟨ht, x, hx, rfl⟩ | ⟨ht, neg, n, u, hn, rfl, hu⟩
    · obtain ⟨y1, y2, m1, m2, d1, d2, hra⟩ := readable_runs ha
      obtain ⟨z1, z2, n1, n2, c1, c2, hrb⟩ := readable_runs hb
      have nr : noRight .none .none .none := fun q hq => by
        rcases (by simpa using hq : q = .none) with rfl
        rfl
      have sh : ∀ {e : Endpoint}, e.shape → (⟨e.date, .none, .none, .none⟩ : Endpoint).shape := fun h =>
        ⟨h.1, rfl, rfl, rfl, by split <;> trivial⟩
      obtain ⟨g, D1, T1⟩ := pair_time (f := f) ha.1 hb.1 ra rb hra hrb
      obtain ⟨g', D2, T2⟩ := pair_time (f := f) (sh ha.1) (sh hb.1) nr nr hra hrb
      refine same D1 T1 ?_ D2 T2 nq
      rw [unq_append, unq_cons _ (by decide), unq_endpoint ha.1, unq_endpoint hb.1, endpoint_plain, endpoint_plain]
    · exact absurd (unm_append (unm_dots ht) (unm_cons (by decide) (unm_date x))) marked
    · refine absurd (unm_append (unm_append (unm_signed (unm_pad n).1) ?_) (unm_cons (by decide) (unm_dots ht))) marked
      rcases hu with rfl | ⟨-, m, -, -, rfl | ⟨d, -, -, rfl⟩⟩
      · exact unm_nil
      · exact unm_cons (by decide) (unm_pad m).2
      · exact unm_cons (by decide) (unm_append (unm_pad m).2 (unm_cons (by decide) (unm_pad d).2))
  · rcases accepted_marked A with k | k | k
    · exact absurd k marked
    · exact absurd k hsl
    · generalize es : s = t at k
      cases k with
      | year neg n hn q hq => exact es ▸ year neg n q hn hq es
      | month neg n m hn h1 h2 hy q hq => exact es ▸ month neg n m q hn h1 h2 hy hq es
      | day neg n m hn h1 h2 hy k k1 k2 q hq => exact es ▸ day neg n m k q hn h1 h2 k1 k2 hy hq es
      | loose n m hn h1 h2 a b hl =>
        exfalso
        have na : a ∉ c! "?~%" := fun k => by
          rcases hl.1 with ⟨h, -⟩ | ⟨h, -⟩ <;> rcases (by simpa using k : a = '?' ∨ a = '~' ∨ a = '%') with rfl | rfl | rfl <;> revert h <;> decide
        have nb : b ∉ c! "?~%" := fun k => by
          rcases hl.1 with ⟨-, h⟩ | ⟨-, h⟩ <;> rcases (by simpa using k : b = '?' ∨ b = '~' ∨ b = '%') with rfl | rfl | rfl <;> revert h <;> decide
        rw [es] at hm
        simp only [List.mem_append, List.mem_cons, List.not_mem_nil, or_false] at hm
        rcases hm with k | k | k | k | k | k
        · exact (unm_pad n).1 q (List.mem_cons_of_mem _ hq) k
        · rw [k] at hq; revert hq; decide
        · exact (unm_pad m).2 q (List.mem_cons_of_mem _ hq) k
        · rw [k] at hq; revert hq; decide
        · exact na (k ▸ hq)
        · exact nb (k ▸ hq)
      | single e he hn hlr hX =>
        subst es
        have hu := unq_endpoint he.1
        have noq : ∀ c ∈ c! "?~%", c ∉ e.date.text := fun c hc k => by
          rw [← hu] at k
          have := (List.mem_filter.1 k).2
          revert this
          rcases (by simpa using hc : c = '?' ∨ c = '~' ∨ c = '%') with rfl | rfl | rfl <;> decide
        have nX : 'X' ∉ e.text := by
          intro k
          obtain ⟨q1, q2, q3⟩ := hX k
          have : e.text = e.date.text := by
            obtain ⟨x, qy, qm, qd⟩ := e
            simp only at q1 q2 q3
            subst q1 q2 q3
            exact endpoint_plain x
          exact noq q hq (this ▸ hm)
        have nX' : 'X' ∉ e.date.text := fun k => nX (by
          rw [← hu] at k
          exact (List.mem_filter.1 k).1)
        have ten : ∀ {t : Str}, 'X' ∉ t → ¬ TenDays t := fun k h => k (ten_x h)
        obtain ⟨y1, y2, m1, m2, d1, d2, hruns⟩ := readable_runs he
        have nr : noRight .none .none .none := fun q hq => by
          rcases (by simpa using hq : q = .none) with rfl
          rfl
        have sh : (⟨e.date, .none, .none, .none⟩ : Endpoint).shape := ⟨he.1.1, rfl, rfl, rfl, by split <;> trivial⟩
        obtain ⟨g, D0, T0⟩ := alone_time hf sh nr (.inr ⟨hn, fun _ => ⟨rfl, rfl, rfl⟩⟩) hruns
        rw [endpoint_plain] at D0 T0
        have T0 := T0.resolve_right (fun k => ten nX' k.1)
        rcases hlr with hl | hr
        · by_cases hE : e.early ∨ e.date.dx = c! "00"
          · have hS := SpanOf.date (f := f) e he.1 _ _ _ _ _ _ hruns
            refine same (.group e he.1 hn nX hl hE _ _ hS) (timed_span hf he.1 rfl hS hruns) hu D0 T0.2 ?_
            obtain ⟨⟨neg, yy, tl⟩, qy, qm, qd⟩ := e
            have rgt : ∀ {p : Deco}, p ∈ [qy, qm, qd] → p.ok = true → p ≠ .none → ∃ c, c ∈ c! "?~%" ∧ p = .right c := by
              intro p hp ho hne
              cases p with
              | none => exact absurd rfl hne
              | left c => exact absurd (hl _ hp) (by simp [Deco.isLeft])
              | right c => exact ⟨c, by simpa [Deco.ok, or_assoc] using ho, rfl⟩
            obtain ⟨⟨-, -, hx⟩, o1, o2, o3, -⟩ := he.1
            have first : qy ≠ .none → tl ≠ .none → ¬ QualifiedDay (⟨⟨neg, yy, tl⟩, qy, qm, qd⟩ : Endpoint).text := by
              intro h ht
              obtain ⟨c, hc, rfl⟩ := rgt (by simp) o1 h
              cases tl with
              | none => exact absurd rfl ht
              | month m => exact inner (u := if neg then '-' :: yy else yy) (p := c) (v := '-' :: qm.text m) (by simp [Endpoint.text, Deco.text]) (by simp) hc
              | day m d => exact inner (u := if neg then '-' :: yy else yy) (p := c) (v := '-' :: (qm.text m ++ '-' :: qd.text d)) (by simp [Endpoint.text, Deco.text]) (by simp) hc
            rcases hE with hE | h0
            · cases tl with
              | none => exact absurd hE id
              | month m => exact first hE (by simp)
              | day m d =>
                rcases hE with h | h
                · exact first h (by simp)
                · obtain ⟨c, hc, rfl⟩ := rgt (by simp) o2 h
                  exact inner (u := qy.text (if neg then '-' :: yy else yy) ++ '-' :: m) (p := c) (v := '-' :: qd.text d) (by simp [Endpoint.text, Deco.text]) (by simp) hc
            · cases tl with
              | none => cases h0
              | month m => cases h0
              | day m d =>
                have h0 : d = c! "00" := h0
                subst h0
                intro h
                obtain ⟨w, k, q', e', k1, k2, hq', -⟩ := qualifiedDay_form h
                by_cases hd : qd = .none
                · subst hd
                  have e2 : (qy.text (if neg then '-' :: yy else yy) ++ '-' :: (qm.text m ++ ['-', '0'])) ++ ['0'] = (w ++ '-' :: pad2 k) ++ [q'] := by
                    rw [← e']; simp [Endpoint.text, Deco.text]
                  obtain ⟨-, e2⟩ := List.append_inj' e2 rfl
                  cases e2
                  revert hq'
                  decide
                · obtain ⟨c, hc, rfl⟩ := rgt (by simp) o3 hd
                  have e2 : (qy.text (if neg then '-' :: yy else yy) ++ '-' :: (qm.text m ++ ['-'])) ++ ['0', '0', c] = (w ++ ['-']) ++ (pad2 k ++ [q']) := by
                    have : (w ++ ['-']) ++ (pad2 k ++ [q']) = w ++ '-' :: pad2 k ++ [q'] := by simp
                    rw [this, ← e']; simp [Endpoint.text, Deco.text]
                  obtain ⟨-, e2⟩ := List.append_inj' e2 (by simp [pad2])
                  have e2 : c! "00" ++ [c] = pad2 k ++ [q'] := e2
                  obtain ⟨e2, -⟩ := List.append_inj' e2 rfl
                  exact (by decide : ∀ k < 32, 1 ≤ k → c! "00" ≠ pad2 k) k (by omega) k1 e2
          · have hp : (⟨e.date, .none, .none, .none⟩ : Endpoint).plain := by
              refine ⟨?_, fun k => hE (.inr k)⟩
              rw [endpoint_plain]
              intro c hc
              rcases List.mem_cons.1 hc with rfl | hc
              · exact nX'
              · exact noq c hc
            obtain ⟨z, hz, ez⟩ := plain_date ⟨sh, he.2⟩ hp
            rw [endpoint_plain] at ez
            have hE' : ¬ e.early := fun k => hE (.inl k)
            have zn : z.neg = false := by
              obtain ⟨⟨neg, yy, tl⟩, qy, qm, qd⟩ := e
              obtain ⟨zneg, n, zt⟩ := z
              simp only at hn
              subst hn
              cases zneg with
              | false => rfl
              | true =>
                exfalso
                obtain ⟨⟨hl4, hy, -⟩, -⟩ := he.1
                match yy, hl4, hy with
                | [a, b, c, d], _, hy =>
                  have : a = '-' := by
                    have := congrArg List.head? ez
                    simpa [XDate.text, Date0.text, Date0.qtext, Deco.text] using this
                  subst this
                  rcases hy '-' (by simp) with k | ⟨k, hk, e⟩
                  · cases k
                  · exact (by decide : ∀ k < 10, '-' ≠ dig k) k hk e
            obtain ⟨q', hq', eq'⟩ : ∃ q', q' ∈ c! "?~%" ∧ e.text = e.date.text ++ [q'] := by
              obtain ⟨⟨neg, yy, tl⟩, qy, qm, qd⟩ := e
              simp only at hn
              subst hn
              have rgt : ∀ {p : Deco}, p ∈ [qy, qm, qd] → p.ok = true → p ≠ .none → ∃ c, c ∈ c! "?~%" ∧ p = .right c := by
                intro p hp ho hne
                cases p with
                | none => exact absurd rfl hne
                | left c => exact absurd (hl _ hp) (by simp [Deco.isLeft])
                | right c => exact ⟨c, by simpa [Deco.ok, or_assoc] using ho, rfl⟩
              obtain ⟨-, o1, o2, o3, hsh⟩ := he.1
              have some : ¬ (qy = .none ∧ qm = .none ∧ qd = .none) := by
                rintro ⟨rfl, rfl, rfl⟩
                rw [endpoint_plain] at hm
                exact noq q hq hm
              cases tl with
              | none =>
                obtain ⟨rfl, rfl⟩ := hsh
                obtain ⟨c, hc, rfl⟩ := rgt (by simp) o1 (fun k => some ⟨k, rfl, rfl⟩)
                exact ⟨c, hc, by simp [Endpoint.text, Deco.text, XDate.text]⟩
              | month m =>
                have hsh : qd = .none := hsh
                subst hsh
                have h1 : qy = .none := Classical.byContradiction hE'
                subst h1
                obtain ⟨c, hc, rfl⟩ := rgt (by simp) o2 (fun k => some ⟨rfl, k, rfl⟩)
                exact ⟨c, hc, by simp [Endpoint.text, Deco.text, XDate.text]⟩
              | day m d =>
                have h1 : qy = .none := Classical.byContradiction fun k => hE' (.inl k)
                have h2 : qm = .none := Classical.byContradiction fun k => hE' (.inr k)
                subst h1 h2
                obtain ⟨c, hc, rfl⟩ := rgt (by simp) o3 (fun k => some ⟨rfl, rfl, k⟩)
                exact ⟨c, hc, by simp [Endpoint.text, Deco.text, XDate.text]⟩
            rw [ez] at eq'
            obtain ⟨neg, n, zt⟩ := z
            simp only at zn
            subst zn
            have hy : SeasonYear (if (false : Bool) = true then -(n : Int) else n) := .inl (by simp)
            cases zt with
            | none => exact year false n q' hz.1 hq' (by rw [eq', text_signed])
            | month m => exact month false n m q' hz.1 hz.2.1 hz.2.2 hy hq' (by rw [eq', text_month]; simp)
            | day m k =>
              have V : Valid _ m k := hz.2
              exact day false n m k q' hz.1 V.1 V.2.1 V.2.2.1 (Nat.le_trans V.2.2.2 (monthLen_pos _ m).2) hy hq' (by rw [eq', text_day]; simp)
        · obtain ⟨g', D1, T1⟩ := alone_time hf he.1 hr (.inr ⟨hn, fun k => absurd k nX⟩) hruns
          have T1 := T1.resolve_right (fun k => ten nX k.1)
          refine same D1 T1.2 hu D0 T0.2 ?_
          intro h
          obtain ⟨w, k, q', e', -, -, hq', -⟩ := qualifiedDay_form h
          have := last_plain he.1 hr e'
          rcases (by simpa using hq' : q' = '?' ∨ q' = '~' ∨ q' = '%') with rfl | rfl | rfl <;> cases this

example : ∃ d e, parseString (c! "~1985-%04/?2004-XX") = .ok d ∧ parseString (c! "1985-04/2004-XX") = .ok e ∧ SameTime d e := by
  obtain ⟨d, hd⟩ : ∃ d, parseString (c! "~1985-%04/?2004-XX") = .ok d := ⟨_, rfl⟩
  obtain ⟨e, he, h⟩ := (C91_qualifiers (q := '~') hd (by decide) (by decide)).2 (fun h => by
    obtain ⟨_, _, _, -, -, -, -, -, h, -⟩ := qualifiedDay_form h
    exact h (by decide))
  exact ⟨d, e, hd, he, h⟩

/-- "2004-06-11%" is read as June 2004. -/
example : ∃ d, parseString (c! "2004-06-11%") = .ok d ∧ ¬ ∃ e, parseString (c! "2004-06-11") = .ok e ∧ SameTime d e :=
  ⟨_, rfl, fun h => (C91_qualifiers (s := c! "2004-06-11%") (q := '%') rfl (by decide) (by decide)).1 h
    ⟨false, 2004, 6, 11, '%', by decide, by decide, by decide, by decide, by decide, by decide, by decide⟩⟩

end EDTF
