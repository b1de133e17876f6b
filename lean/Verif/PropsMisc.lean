/- C39-C41, C43-C45, C47, C48, C50: calendar helpers, flags, errors,
deprecated values, timestamps, sign flips and two recognisers. -/
import Verif.PropsGeneral
namespace EDTF
open Spec

/-! ### C39 -/

theorem parseToks_long {ds rest : Str} (hd : ds.all isDig = true) (hl : 5 ≤ ds.length) (f : Fields) (ts : List Tok) :
    parseToks (.year4 :: .lit '-' :: ts) f (ds ++ rest) = none := by
  match ds, hl with
  | a :: b :: c :: d :: e :: more, _ =>
    simp only [List.all_cons, Bool.and_eq_true] at hd
    obtain ⟨ha, hb, hc, hd', he, -⟩ := hd
    have hne : e ≠ '-' := isDig_ne he (by decide)
    simp [parseToks, parseTok, ha, hb, hc, hd', hne]

theorem natDigits_long {n : Nat} (h : 10000 ≤ n) : 5 ≤ (natDigits n).length := by
  have := natDigits_length_le (n := n) (k := 4) (by decide)
  omega

theorem wrap_flip {y : Int} (h1 : -2 ^ 63 ≤ y) (h2 : y < 2 ^ 63) :
    wrap64 (y - wrap64 (y * 2)) = if y = -2 ^ 63 then -2 ^ 63 else -y := by
  unfold wrap64
  split
  · rename_i h; subst h; decide
  · simp only [Int.bmod_def]
    omega

/-- C39: DaysInMonth is the length of the month, for years -9999..9999. -/
theorem C39_days {y : Int} {m : Nat} (hy : y.natAbs ≤ 9999) (h1 : 1 ≤ m) (h2 : m ≤ 12) :
    daysInMonth y m = .ok (monthLen y m : Int) := daysInMonth_eq (by omega) h1 h2

example : daysInMonth (-4) 2 = .ok 29 ∧ daysInMonth 1900 2 = .ok 28 ∧ daysInMonth 9999 12 = .ok 31 := by decide +kernel

/-- C39: years of more than four digits (as 64-bit integers) are errors. -/
theorem C39_long_years {y m : Int} (hy : 9999 < y.natAbs) (h1 : -2 ^ 63 ≤ y) (h2 : y < 2 ^ 63) :
    daysInMonth y m = .err .plain := by
  unfold daysInMonth
  simp only
  have hw := wrap_flip h1 h2
  have key : ∀ (z : Int) (r : Str), (10000 ≤ z ∨ z < 0) → timeParse layoutDate (padInt 4 z ++ r) = none := by
    intro z r hz
    unfold timeParse layoutDate
    rcases hz with hz | hz
    · have hneg : ¬ z < 0 := by omega
      have e : padInt 4 z = natDigits z.natAbs := by
        unfold padInt zeroPad
        rw [if_neg hneg]
        have := natDigits_long (n := z.natAbs) (by omega)
        rw [show 4 - (natDigits z.natAbs).length = 0 by omega]; rfl
      rw [e, parseToks_long (natDigits_all _) (natDigits_long (by omega))]
    · have e : ∃ t, padInt 4 z ++ r = '-' :: t := by
        unfold padInt; rw [if_pos hz]; exact ⟨_, rfl⟩
      obtain ⟨t, e⟩ := e
      rw [e]
      have : parseToks [Tok.year4, Tok.lit '-', Tok.mon2, Tok.lit '-', Tok.day2] {} ('-' :: t) = none := by
        rcases t with _ | ⟨a, _ | ⟨b, _ | ⟨c, t⟩⟩⟩ <;>
          simp [parseToks, parseTok, show isDig '-' = false from rfl]
      rw [this]
  have hz : 10000 ≤ (if y < 0 then wrap64 (y - wrap64 (y * 2)) else y) ∨
      (if y < 0 then wrap64 (y - wrap64 (y * 2)) else y) < 0 := by
    rw [hw]
    split
    · split <;> omega
    · omega
  rw [List.append_assoc, List.append_assoc, key _ _ hz]

example : daysInMonth 10000 1 = .err .plain ∧ daysInMonth (-10000) 1 = .err .plain := by decide +kernel

/-- C39: negative months are errors. -/
theorem C39_negative_months {y m : Int} (hm : m < 0) (h1 : -2 ^ 63 ≤ y) (h2 : y < 2 ^ 63) :
    daysInMonth y m = .err .plain := by
  by_cases hy : 9999 < y.natAbs
  · exact C39_long_years hy h1 h2
  unfold daysInMonth
  simp only
  have hw := wrap_flip h1 h2
  obtain ⟨n, hn, e⟩ : ∃ n : Nat, n < 10000 ∧ (if y < 0 then wrap64 (y - wrap64 (y * 2)) else y) = n := by
    rw [hw]
    refine ⟨y.natAbs, by omega, ?_⟩
    split
    · split <;> omega
    · omega
  rw [e, padInt4 hn, if_neg (by omega : ¬ m ≥ 12)]
  have hp : ∀ r f, parseTok .mon2 f (padInt 2 (m + 1) ++ r) = none := by
    intro r f
    by_cases h0 : m + 1 < 0
    · unfold padInt
      rw [if_pos h0]
      generalize zeroPad (2 - 1) (natDigits (m + 1).natAbs) ++ r = t
      rw [List.cons_append]
      generalize zeroPad (2 - 1) (natDigits (m + 1).natAbs) ++ r = t
      rcases t with _ | ⟨a, t⟩ <;> simp [parseTok, getnum, show isDig '-' = false from rfl]
    · have : m = -1 := by omega
      subst this
      exact parseTok_mon2_bad f (n := 0) (Or.inl rfl) (by decide) r
  have : timeParse layoutDate (pad4 n ++ c! "-" ++ padInt 2 (m + 1) ++ c! "-01") = none := by
    unfold timeParse layoutDate
    rw [List.append_assoc, List.append_assoc]
    simp only [parseToks]
    rw [parseTok_year4 _ hn]
    simp only [List.cons_append, List.nil_append]
    rw [parseTok_lit]
    simp only
    rw [hp]
  rw [this]

example : daysInMonth 1985 (-1) = .err .plain := by decide +kernel

/-- Months outside 1..12 that are not negative: 0 and everything from 13 on are
treated as months of 31 days. -/
theorem C39_other_months {y m : Int} (hy : y.natAbs ≤ 9999) (hm : m = 0 ∨ 12 < m) : daysInMonth y m = .ok 31 := by
  rcases hm with rfl | hm
  · have h := daysInMonth_eq (y := y) (m := 12) (by omega) (by decide) (by decide)
    have h12 : monthLen y 12 = 31 := rfl
    -- month 0 is followed by January, whose first day comes after 31 December
    have hw := wrap_flip (y := y) (by omega) (by omega)
    unfold daysInMonth at h ⊢
    simp only at h ⊢
    have hn : ∃ n : Nat, n < 10000 ∧ (if y < 0 then wrap64 (y - wrap64 (y * 2)) else y) = n := by
      rw [hw]
      refine ⟨y.natAbs, by omega, ?_⟩
      split
      · split <;> omega
      · omega
    obtain ⟨n, hn, e⟩ := hn
    rw [e] at h ⊢
    rw [if_pos (by decide : ((12 : Nat) : Int) ≥ 12)] at h
    rw [if_neg (by decide : ¬ ((0 : Int) ≥ 12))]
    exact h.trans (by rw [h12]; rfl)
  · have h := daysInMonth_eq (y := y) (m := 12) (by omega) (by decide) (by decide)
    unfold daysInMonth at h ⊢
    simp only at h ⊢
    rw [if_pos (by decide : ((12 : Nat) : Int) ≥ 12)] at h
    rw [if_pos (by omega : m ≥ 12)]
    exact h.trans (by rw [show monthLen y 12 = 31 from rfl]; rfl)

example : daysInMonth (-4) 2 = .ok 29 ∧ daysInMonth 1900 2 = .ok 28 ∧ daysInMonth 10000 2 = .err .plain := ⟨rfl, rfl, rfl⟩

/-! ### C40 -/

/-- C40: a full date is read back exactly. -/
theorem C40_full_date {neg : Bool} {n m d : Nat} (hn : n < 10000)
    (hv : Valid (if neg then -(n : Int) else n) m d) :
    ymdFromString ((if neg then '-' :: pad4 n else pad4 n) ++ c! "-" ++ pad2 m ++ c! "-" ++ pad2 d) =
      .ok ⟨if neg then -(n : Int) else n, m, d⟩ := by
  have hl := valid_lt hv
  have hy : (if neg then -(n : Int) else n).natAbs < 10000 := by cases neg <;> simp <;> omega
  have key := ymdFromStrings_eq (ys := yearStr neg n) (ms := pad2 m) (ds := pad2 d) (yearStr_ne_nil _ _) (by simp)
    (by simp) (atoi_yearStr neg hn) (atoi_pad2 hl.1) (atoi_pad2 hl.2) hy hv.1 hv.2.1
  rw [if_pos hv.2.2.2, if_neg (by have := hv.2.2.1; omega : ¬ d = 0)] at key
  have s2 : splitChar '-' (pad2 d) = [pad2 d] := splitChar_none (dash_not_mem (pad2_all d))
  have s3 : splitChar '-' (pad2 m ++ '-' :: pad2 d) = [pad2 m, pad2 d] := by
    rw [splitChar_append (dash_not_mem (pad2_all m)), s2]
  have s4 : splitChar '-' (pad4 n ++ '-' :: (pad2 m ++ '-' :: pad2 d)) = [pad4 n, pad2 m, pad2 d] := by
    rw [splitChar_append (dash_not_mem (pad4_all n)), s3]
  cases neg with
  | false =>
    unfold ymdFromString
    have e : (if false = true then '-' :: pad4 n else pad4 n) ++ c! "-" ++ pad2 m ++ c! "-" ++ pad2 d =
      pad4 n ++ '-' :: (pad2 m ++ '-' :: pad2 d) := by simp
    rw [e, s4]
    exact key
  | true =>
    unfold ymdFromString
    have e : (if true = true then '-' :: pad4 n else pad4 n) ++ c! "-" ++ pad2 m ++ c! "-" ++ pad2 d =
      [] ++ '-' :: (pad4 n ++ '-' :: (pad2 m ++ '-' :: pad2 d)) := by simp
    rw [e, splitChar_append (by simp), s4]
    exact key

example : Valid (if true then -((4 : Nat) : Int) else 4) 2 29 ∧ ymdFromString (c! "-0004-02-29") = .ok ⟨-4, 2, 29⟩ := by
  refine ⟨?_, by decide +kernel⟩
  unfold Valid
  decide

theorem splitChar_all {sep : Char} {q : Char → Bool} {s : Str} (h : ∀ c ∈ s, c = sep ∨ q c = true) :
    ∀ p ∈ splitChar sep s, p.all q = true := by
  induction s with
  | nil => simp [splitChar]
  | cons c cs ih =>
    have ih' := ih (fun x hx => h x (List.mem_cons_of_mem _ hx))
    unfold splitChar
    by_cases hc : c = sep
    · rw [if_pos hc]
      intro p hp
      rcases List.mem_cons.1 hp with rfl | hp
      · rfl
      · exact ih' p hp
    · rw [if_neg hc]
      have hq : q c = true := (h c (by simp)).resolve_left hc
      split
      · intro p hp; simp at hp; subst hp; simp [hq]
      · rename_i p ps e
        rw [e] at ih'
        intro x hx
        rcases List.mem_cons.1 hx with rfl | hx
        · simp only [List.all_cons, hq, Bool.true_and]; exact ih' p (by simp)
        · exact ih' x (by simp [hx])

/-- C40: whatever is returned for a text of digits and dashes is an existing
date of years -9999..9999. -/
theorem C40_existing {s : Str} {v : YMD} (hs : ∀ c ∈ s, c = '-' ∨ isDig c = true) (h : ymdFromString s = .ok v) :
    ∃ (y : Int) (m d : Nat), v = ⟨y, m, d⟩ ∧ y.natAbs ≤ 9999 ∧ Valid y m d := by
  have hp := splitChar_all hs
  have fin : ∀ {ys ms ds : Str}, ms.all isDig = true → ds.all isDig = true → ymdFromStrings ys ms ds = .ok v →
      ∃ (y : Int) (m d : Nat), v = ⟨y, m, d⟩ ∧ y.natAbs ≤ 9999 ∧ Valid y m d := by
    intro ys ms ds hm hd hv
    obtain ⟨y, m, d, e, -, hy, hval, -⟩ := ymdFromStrings_ok hm hd hv
    exact ⟨y, m, d, e, by omega, hval⟩
  unfold ymdFromString at h
  split at h
  · rename_i e; rw [e] at hp; exact fin (hp _ (by simp)) (hp _ (by simp)) h
  · rename_i e; rw [e] at hp; exact fin (hp _ (by simp)) (hp _ (by simp)) h
  · rename_i e; rw [e] at hp; exact fin (hp _ (by simp)) rfl h
  · exact fin rfl rfl h
  · cases h

example : (∀ c ∈ c! "1985-4-12", c = '-' ∨ isDig c = true) ∧ ymdFromString (c! "1985-4-12") = .ok ⟨1985, 4, 12⟩ := by decide +kernel

/-- What `ymdFromStrings` returns once its three texts are read as numbers (a
missing month or day is zero). -/
theorem ymdFromStrings_total {ys ms ds : Str} {y : Int} {m d : Nat} (hys : ys ≠ []) (hmd : ¬ (ms = [] ∧ ds ≠ []))
    (ay : atoi ys = some y) (am : atoiOrZero ms = .ok (m : Int)) (ad : atoiOrZero ds = .ok (d : Int))
    (hy : y.natAbs < 10000) :
    ymdFromStrings ys ms ds =
      if m = 0 then (if d = 0 then .ok ⟨y, 1, 31⟩ else .err .plain)
      else if m ≤ 12 ∧ d ≤ monthLen y m then .ok ⟨y, m, if d = 0 then monthLen y m else d⟩
      else .err .plain := by
  have hfl : flipYear (flipYear y) = y ∧ flipYear y = -y := by
    have h3 := flipYear_eq (y := y) (by omega) (by omega)
    have h4 := flipYear_eq (y := -y) (by omega) (by omega)
    rw [h3, h4]; omega
  have hdm : ∀ {k : Nat}, 1 ≤ k → k ≤ 12 → daysInMonth (if y < 0 then flipYear y else y) k = .ok (monthLen y k : Int) := by
    intro k h1 h2
    have e : (if y < 0 then flipYear y else y) = (y.natAbs : Int) := by
      split
      · rw [hfl.2]; omega
      · omega
    rw [e, daysInMonth_nonneg hy h1 h2, monthLen_natAbs]
  have hle : ¬ (if y < 0 then flipYear y else y) > MAX_YEARS := by
    unfold MAX_YEARS
    split
    · rw [hfl.2]; omega
    · omega
  have hback : (if y < 0 then flipYear (if y < 0 then flipYear y else y) else (if y < 0 then flipYear y else y)) = y := by
    split
    · exact hfl.1
    · rfl
  unfold ymdFromStrings
  rw [if_neg hys, if_neg hmd]
  simp only [ay, am, ad, Res.ofOption_some, Res.ok_bind, decide_eq_true_eq]
  rw [if_neg hle]
  by_cases m0 : m = 0
  · subst m0
    rw [if_pos rfl]
    by_cases d0 : d = 0
    · subst d0
      rw [if_neg (by omega), if_neg (by omega), if_pos rfl]
      have h1 := hdm (k := 1) (by decide) (by decide)
      simp only [Int.natCast_zero, if_true, show ((1 : Nat) : Int) = 1 from rfl] at h1 ⊢
      rw [h1]
      simp only [Res.ok_bind, hback]
      rw [if_neg (by simp), show monthLen y 1 = 31 from rfl]
      rfl
    · rw [if_pos ⟨by omega, by omega⟩, if_neg d0]
  · rw [if_neg m0, if_neg (by omega)]
    by_cases m12 : m ≤ 12
    · rw [if_neg (by omega)]
      simp only [if_neg (show ¬ (m : Int) = 0 by omega), hdm (by omega : 1 ≤ m) m12, Res.ok_bind, hback]
      by_cases hd : d ≤ monthLen y m
      · rw [if_neg (by omega : ¬ ((d : Int) ≠ 0 ∧ (d : Int) > (monthLen y m : Int))), if_pos (⟨m12, hd⟩ : m ≤ 12 ∧ d ≤ monthLen y m)]
        congr 2
        by_cases d0 : d = 0
        · rw [if_pos (by omega), if_pos d0]
        · rw [if_neg (by omega), if_neg d0]
      · rw [if_pos (by omega), if_neg (fun h => hd h.2)]
    · rw [if_pos (by omega), if_neg (by omega)]

theorem atoiOrZero_pad2 {n : Nat} (h : n < 100) : atoiOrZero (pad2 n) = .ok (n : Int) := by
  unfold atoiOrZero
  rw [if_pos (by simp [pad2]), atoi_pad2 h]; rfl

/-- C40: a year and a month give the last day of the month. -/
theorem C40_year_month {n m : Nat} (hn : n < 10000) (h1 : 1 ≤ m) (h2 : m ≤ 12) :
    ymdFromString (pad4 n ++ c! "-" ++ pad2 m) = .ok ⟨n, m, monthLen n m⟩ := by
  have s2 : splitChar '-' (pad2 m) = [pad2 m] := splitChar_none (dash_not_mem (pad2_all m))
  unfold ymdFromString
  rw [show pad4 n ++ c! "-" ++ pad2 m = pad4 n ++ '-' :: pad2 m by simp, splitChar_append (dash_not_mem (pad4_all n)), s2]
  show ymdFromStrings (pad4 n) (pad2 m) [] = _
  rw [ymdFromStrings_total (y := n) (m := m) (d := 0) (by simp [pad4]) (by simp) (atoi_pad4 hn)
    (atoiOrZero_pad2 (by omega)) rfl (by omega)]
  rw [if_neg (by omega), if_pos ⟨h2, Nat.zero_le _⟩, if_pos rfl]

example : ymdFromString (c! "2004-02") = .ok ⟨2004, 2, 29⟩ := by decide +kernel

/-- C40: a year alone gives the last day of January. -/
theorem C40_year {n : Nat} (hn : n < 10000) : ymdFromString (pad4 n) = .ok ⟨n, 1, 31⟩ := by
  unfold ymdFromString
  rw [splitChar_none (dash_not_mem (pad4_all n))]
  show ymdFromStrings (pad4 n) [] [] = _
  rw [ymdFromStrings_total (y := n) (m := 0) (d := 0) (by simp [pad4]) (by simp) (atoi_pad4 hn) rfl rfl (by omega)]
  rfl

example : ymdFromString (c! "2004") = .ok ⟨2004, 1, 31⟩ := by decide +kernel

/-- C40: the complete table for two-digit months and days: an existing date is
read as it is, day 00 is the last day of the month, 00-00 the last day of
January, and anything else is an error. -/
theorem C40_table {neg : Bool} {n m d : Nat} (hn : n < 10000) (hm : m < 100) (hd : d < 100) :
    ymdFromString ((if neg then '-' :: pad4 n else pad4 n) ++ c! "-" ++ pad2 m ++ c! "-" ++ pad2 d) =
      if m = 0 then (if d = 0 then .ok ⟨if neg then -(n : Int) else n, 1, 31⟩ else .err .plain)
      else if m ≤ 12 ∧ d ≤ monthLen (if neg then -(n : Int) else n) m then
        .ok ⟨if neg then -(n : Int) else n, m, if d = 0 then monthLen (if neg then -(n : Int) else n) m else d⟩
      else .err .plain := by
  have hy : (if neg then -(n : Int) else n).natAbs < 10000 := by cases neg <;> simp <;> omega
  have key := ymdFromStrings_total (ys := yearStr neg n) (ms := pad2 m) (ds := pad2 d) (yearStr_ne_nil _ _) (by simp)
    (atoi_yearStr neg hn) (atoiOrZero_pad2 hm) (atoiOrZero_pad2 hd) hy
  have s2 : splitChar '-' (pad2 d) = [pad2 d] := splitChar_none (dash_not_mem (pad2_all d))
  have s3 : splitChar '-' (pad2 m ++ '-' :: pad2 d) = [pad2 m, pad2 d] := by
    rw [splitChar_append (dash_not_mem (pad2_all m)), s2]
  have s4 : splitChar '-' (pad4 n ++ '-' :: (pad2 m ++ '-' :: pad2 d)) = [pad4 n, pad2 m, pad2 d] := by
    rw [splitChar_append (dash_not_mem (pad4_all n)), s3]
  rw [← key]
  unfold ymdFromString
  cases neg with
  | false =>
    have e : (if false = true then '-' :: pad4 n else pad4 n) ++ c! "-" ++ pad2 m ++ c! "-" ++ pad2 d =
      pad4 n ++ '-' :: (pad2 m ++ '-' :: pad2 d) := by simp
    rw [e, s4]
    rfl
  | true =>
    have e : (if true = true then '-' :: pad4 n else pad4 n) ++ c! "-" ++ pad2 m ++ c! "-" ++ pad2 d =
      [] ++ '-' :: (pad4 n ++ '-' :: (pad2 m ++ '-' :: pad2 d)) := by simp
    rw [e, splitChar_append (by simp), s4]
    rfl

example : ymdFromString (c! "2021") = .ok ⟨2021, 1, 31⟩ ∧ ymdFromString (c! "-0004-02-00") = .ok ⟨-4, 2, 29⟩ ∧
    ymdFromString (c! "2021-13-01") = .err .plain := ⟨rfl, rfl, rfl⟩

/-- YMD.Equals is equality. -/
theorem C40_equals (a b : YMD) : a.equals b = true ↔ a = b := by
  obtain ⟨y, m, d⟩ := a
  obtain ⟨y', m', d'⟩ := b
  simp only [YMD.equals, YMD.mk.injEq]
  by_cases h1 : y = y' <;> by_cases h2 : m = m' <;> by_cases h3 : d = d' <;> simp [h1, h2, h3]

/-- The restriction to digits is needed: a signed day text is taken at face value. -/
theorem C40_signed_day : ymdFromStrings (c! "2004") (c! "06") (c! "-5") = .ok ⟨2004, 6, -5⟩ := rfl

/-- A negative year without month is not understood ("Missing year" or a month
that is taken to be the year). -/
theorem C40_negative_year : ymdFromString (c! "-200") = .err .plain ∧ ymdFromString (c! "-0200-05") = .err .plain :=
  ⟨rfl, rfl⟩

example : ymdFromString (c! "2004-02") = .ok ⟨2004, 2, 29⟩ := rfl

/-! ### C41 -/

/-- Bit `i` of a set of flags. -/
def Prec.has (f : Prec) (i : Nat) : Prop := f.getLsbD i = true

/-- C41: the operations are the set operations on bits. -/
theorem C41_sets (f g : Prec) :
    (∀ i, (Prec.addFlag f g).has i ↔ f.has i ∨ g.has i) ∧
    (∀ i, (Prec.clearFlag f g).has i ↔ f.has i ∧ ¬ g.has i) ∧
    (∀ i, (Prec.toggleFlag f g).has i ↔ ((f.has i ∧ ¬ g.has i) ∨ (¬ f.has i ∧ g.has i))) ∧
    (Prec.hasFlag f g = true ↔ ∃ i, f.has i ∧ g.has i) := by
  refine ⟨fun i => ?_, fun i => ?_, fun i => ?_, ?_⟩
  · simp [Prec.has, Prec.addFlag]
  · simp only [Prec.has, Prec.clearFlag, BitVec.getLsbD_and, BitVec.getLsbD_not, Bool.and_eq_true, Bool.not_eq_true',
      decide_eq_true_eq]
    constructor
    · rintro ⟨a, b, c⟩; exact ⟨a, by simp [c]⟩
    · rintro ⟨a, b⟩; exact ⟨a, BitVec.lt_of_getLsbD a, by simpa using b⟩
  · simp only [Prec.has, Prec.toggleFlag, BitVec.getLsbD_xor]
    cases f.getLsbD i <;> cases g.getLsbD i <;> simp
  · simp only [Prec.has, Prec.hasFlag, bne_iff_ne, ne_eq]
    constructor
    · intro h
      apply Classical.byContradiction
      intro hn
      apply h
      apply BitVec.eq_of_getLsbD_eq
      intro i hi
      simp only [BitVec.getLsbD_and]
      cases hf : f.getLsbD i <;> cases hg : g.getLsbD i <;> simp
      exact absurd ⟨i, hf, hg⟩ hn
    · rintro ⟨i, a, b⟩ e
      have := congrArg (fun x : BitVec 32 => x.getLsbD i) e
      simp [a, b] at this

/-- C41: the named precisions are different single bits. -/
theorem C41_named : ∃ k : Nat → Nat, (∀ i < 9, k i < 32) ∧ (∀ i < 9, ∀ j < 9, k i = k j → i = j) ∧
    [Prec.ALL, Prec.ANY, Prec.DAY, Prec.WEEK, Prec.MONTH, Prec.YEAR, Prec.DECADE, Prec.CENTURY, Prec.MILLENIUM] =
      (List.range 9).map (fun i => BitVec.ofNat 32 (2 ^ k i)) ∧ Prec.NONE = 0 :=
  ⟨fun i => i + 1, fun i h => by show i + 1 < 32; omega, fun i _ j _ h => by
    have : i + 1 = j + 1 := h
    omega, by decide, rfl⟩

/-- C41: the derived tests. -/
theorem C41_tests (f : Prec) : (Prec.isAnnual f = true ↔ f.has 6) ∧ (Prec.isMonthly f = true ↔ f.has 5) ∧
    (Prec.isDaily f = true ↔ f.has 3) := by
  have single : ∀ k, k < 32 → ((∃ i, f.has i ∧ Prec.has (BitVec.twoPow 32 k) i) ↔ f.has k) := by
    intro k hk
    constructor
    · rintro ⟨i, a, b⟩
      have : i = k := by
        unfold Prec.has at b
        rw [BitVec.getLsbD_twoPow] at b
        simp only [Bool.and_eq_true, decide_eq_true_eq] at b
        exact b.2.symm
      exact this ▸ a
    · intro h
      refine ⟨k, h, ?_⟩
      unfold Prec.has
      rw [BitVec.getLsbD_twoPow]
      simp [hk]
  refine ⟨?_, ?_, ?_⟩
  · unfold Prec.isAnnual; rw [(C41_sets f Prec.YEAR).2.2.2]; exact single 6 (by decide)
  · unfold Prec.isMonthly; rw [(C41_sets f Prec.MONTH).2.2.2]; exact single 5 (by decide)
  · unfold Prec.isDaily; rw [(C41_sets f Prec.DAY).2.2.2]; exact single 3 (by decide)

example : Prec.hasFlag (Prec.addFlag Prec.YEAR Prec.DAY) Prec.DAY = true ∧
    Prec.hasFlag (Prec.clearFlag (Prec.addFlag Prec.YEAR Prec.DAY) Prec.DAY) Prec.DAY = false := by decide

/-! ### C43 -/

/-- C43 does not hold for NotSet: the error it makes is not recognised by
IsNotSet (but by IsNotImplemented), and neither is the one of Lower(). -/
theorem C43_negation : isNotSet NotSet = false ∧ isNotImplemented NotSet = true ∧
    ∃ d e, parseString (c! "..") = .ok d ∧ d.lower = .err e ∧ isNotSet e = false :=
  ⟨rfl, rfl, _, _, rfl, rfl, rfl⟩

/-- C43 for the other four kinds: each predicate holds exactly for the errors
of its constructor.  Missing: NotSet, where it fails. -/
theorem C43_others_partial (e : Err) :
    (isInvalid e = true ↔ ∃ l s, e = Invalid l s) ∧
    (isUnsupported e = true ↔ ∃ l s, e = Unsupported l s) ∧
    (isUnrecognized e = true ↔ ∃ l s, e = Unrecognized l s) ∧
    (isNotImplemented e = true ↔ (∃ l s, e = NotImplemented l s)) := by
  cases e <;> simp [isInvalid, isUnsupported, isUnrecognized, isNotImplemented, Invalid, Unsupported, Unrecognized,
    NotImplemented]

/-- Lower() and Upper() of an undated side return the error made by NotSet. -/
theorem C43_undated {d : EDTFDate} {r : DateRange} {x : Date} :
    (d.start = some r → r.lower = some x → x.timestamp = none → d.lower = .err NotSet) ∧
    (d.stop = some r → r.upper = some x → x.timestamp = none → d.upper = .err NotSet) := by
  constructor
  · intro h1 h2 h3; simp [EDTFDate.lower, h1, h2, h3]
  · intro h1 h2 h3; simp [EDTFDate.upper, h1, h2, h3]

example : ∃ d, parseString (c! "../1985") = .ok d ∧ d.lower = .err NotSet ∧ ∃ u, d.upper = .ok u := ⟨_, rfl, rfl, _, rfl⟩

/-! ### C44 -/

/-- C44: deprecated strings are exactly those that can be replaced; the
replacement is not deprecated and means the same. -/
theorem C44_deprecated (s : Str) :
    (isDeprecated s = true ↔ ∃ r, replaceDeprecated s = .ok r) ∧
    (∀ r, replaceDeprecated s = .ok r →
      isDeprecated r = false ∧ isOpenStr r = isOpenStr s ∧ isUnspecifiedStr r = isUnspecifiedStr s ∧
      isUnknownStr r = isUnknownStr s) := by
  by_cases h1 : s = OPEN_2012
  · subst h1
    refine ⟨⟨fun _ => ⟨_, rfl⟩, fun _ => rfl⟩, ?_⟩
    intro r hr
    have : replaceDeprecated OPEN_2012 = .ok OPEN := rfl
    rw [this] at hr; cases hr; decide
  by_cases h2 : s = UNSPECIFIED_2012
  · subst h2
    refine ⟨⟨fun _ => ⟨_, rfl⟩, fun _ => rfl⟩, ?_⟩
    intro r hr
    have : replaceDeprecated UNSPECIFIED_2012 = .ok UNSPECIFIED := rfl
    rw [this] at hr; cases hr; decide
  have a : isDeprecated s = false := by simp [isDeprecated, deprecatedTable, h1, h2]
  have b : replaceDeprecated s = .err .plain := by
    unfold replaceDeprecated deprecatedTable
    simp [List.lookup, beq_eq_false_iff_ne.2 h1, beq_eq_false_iff_ne.2 h2]
  rw [a, b]
  simp

example : replaceDeprecated (c! "open") = .ok (c! "..") ∧ isDeprecated (c! "uuuu") = true ∧ isDeprecated (c! "..") = false := by decide

/-- The deprecated strings are "open" and "uuuu". -/
theorem C44_which (s : Str) : isDeprecated s = true ↔ s = c! "open" ∨ s = c! "uuuu" := by
  simp [isDeprecated, deprecatedTable, OPEN_2012, UNSPECIFIED_2012]

/-! ### C45 -/

theorem digitsVal_map (ds : List Nat) (h : ∀ d ∈ ds, d < 10) : digitsVal (ds.map dig) = value10 ds := by
  unfold digitsVal value10
  suffices ∀ acc, (ds.map dig).foldl (fun acc c => acc * 10 + digVal c) acc =
      ds.foldl (fun acc d => 10 * acc + d) acc from this 0
  induction ds with
  | nil => intro acc; rfl
  | cons d ds ih =>
    intro acc
    simp only [List.map_cons, List.foldl_cons]
    rw [digVal_dig_lt d (h d (by simp)), ih (fun x hx => h x (by simp [hx])), Nat.mul_comm acc 10]

theorem digits_map {s : Str} (h : s.all isDig = true) : ∃ ds : List Nat, (∀ d ∈ ds, d < 10) ∧ s = ds.map dig := by
  induction s with
  | nil => exact ⟨[], by simp, rfl⟩
  | cons c cs ih =>
    simp only [List.all_cons, Bool.and_eq_true] at h
    obtain ⟨ds, h1, h2⟩ := ih h.2
    refine ⟨digVal c :: ds, ?_, ?_⟩
    · intro d hd
      rcases List.mem_cons.1 hd with rfl | hd
      · exact digVal_lt h.1
      · exact h1 d hd
    · rw [List.map_cons, dig_digVal h.1, ← h2]

theorem map_digits (ds : List Nat) (h : ∀ d ∈ ds, d < 10) : (ds.map dig).all isDig = true := by
  induction ds with
  | nil => rfl
  | cons d ds ih =>
    simp only [List.map_cons, List.all_cons, isDig_dig_lt d (h d (by simp)), Bool.true_and]
    exact ih (fun x hx => h x (by simp [hx]))

theorem parseInt_plus (bits : Nat) {s : Str} (h : s.all isDig = true) (h0 : s ≠ []) :
    parseInt bits ('+' :: s) = if digitsVal s < 2 ^ (bits - 1) then some (digitsVal s : Int) else none := by
  unfold parseInt
  simp [h, h0]

/-- ParseInt accepts exactly the decimal 64-bit integers. -/
theorem parseInt_iff (s : Str) (n : Int) : parseInt 64 s = some n ↔ Decimal s n ∧ -2 ^ 63 ≤ n ∧ n < 2 ^ 63 := by
  constructor
  · intro h
    have hr := parseInt_range h
    refine ⟨?_, by omega, by omega⟩
    have fin : ∀ (ds : Str), ds.isEmpty = false → ds.all isDig = true → ∃ l : List Nat, l ≠ [] ∧ (∀ d ∈ l, d < 10) ∧
        ds = l.map dig ∧ digitsVal ds = value10 l := by
      intro ds h1 h2
      obtain ⟨l, a, b⟩ := digits_map h2
      refine ⟨l, ?_, a, b, by rw [b, digitsVal_map l a]⟩
      rintro rfl
      simp at b; subst b; cases h1
    unfold parseInt at h
    simp only at h
    split at h
    · rename_i ds
      split at h
      · cases h
      · rename_i hc
        simp only [Bool.or_eq_true, not_or, Bool.not_eq_true, Bool.not_eq_false'] at hc
        obtain ⟨l, a, b, c, d⟩ := fin ds hc.1 hc.2
        simp only [if_true] at h
        split at h
        · injection h with h
          exact ⟨l, a, b, Or.inr ⟨by rw [c], by rw [← h, d]⟩⟩
        · cases h
    · rename_i ds
      split at h
      · cases h
      · rename_i hc
        simp only [Bool.or_eq_true, not_or, Bool.not_eq_true, Bool.not_eq_false'] at hc
        obtain ⟨l, a, b, c, d⟩ := fin ds hc.1 hc.2
        simp only [Bool.false_eq_true, if_false] at h
        split at h
        · injection h with h
          exact ⟨l, a, b, Or.inl ⟨Or.inr (by rw [c]), by rw [← h, d]⟩⟩
        · cases h
    · split at h
      · cases h
      · rename_i hc
        simp only [Bool.or_eq_true, not_or, Bool.not_eq_true, Bool.not_eq_false'] at hc
        obtain ⟨l, a, b, c, d⟩ := fin s hc.1 hc.2
        simp only [Bool.false_eq_true, if_false] at h
        split at h
        · injection h with h
          exact ⟨l, a, b, Or.inl ⟨Or.inl c, by rw [← h, d]⟩⟩
        · cases h
  · rintro ⟨⟨l, h0, h1, h⟩, r1, r2⟩
    have hne : l.map dig ≠ [] := by simpa using h0
    have ha := map_digits l h1
    have hv := digitsVal_map l h1
    rcases h with ⟨rfl | rfl, rfl⟩ | ⟨rfl, rfl⟩
    · rw [parseInt_digits 64 ha hne, hv, if_pos (by omega)]
    · rw [parseInt_plus 64 ha hne, hv, if_pos (by omega)]
    · rw [parseInt_neg 64 ha hne, hv, if_pos (by omega)]

theorem dropWhile_split (c : Char) (s : Str) : ∃ i, s = List.replicate i c ++ s.dropWhile (· == c) := by
  induction s with
  | nil => exact ⟨0, rfl⟩
  | cons x xs ih =>
    by_cases h : x = c
    · obtain ⟨i, hi⟩ := ih
      refine ⟨i + 1, ?_⟩
      rw [List.replicate_succ, List.dropWhile_cons_of_pos (by simp [h]), h]
      exact congrArg (c :: ·) hi
    · exact ⟨0, by rw [List.dropWhile_cons_of_neg (by simp [h])]; rfl⟩

theorem trimChar_split (c : Char) (s : Str) :
    ∃ i j, s = List.replicate i c ++ trimChar c s ++ List.replicate j c := by
  obtain ⟨i, hi⟩ := dropWhile_split c s
  obtain ⟨j, hj⟩ := dropWhile_split c (s.dropWhile (· == c)).reverse
  refine ⟨i, j, ?_⟩
  have := congrArg List.reverse hj
  rw [List.reverse_reverse, List.reverse_append, List.reverse_replicate] at this
  unfold trimChar
  rw [List.append_assoc, ← this, ← hi]

theorem dropWhile_replicate (c : Char) (i : Nat) (s : Str) (h : s.head? ≠ some c) :
    (List.replicate i c ++ s).dropWhile (· == c) = s := by
  induction i with
  | zero =>
    cases s with
    | nil => rfl
    | cons x xs =>
      have : x ≠ c := fun e => h (by rw [e]; rfl)
      exact List.dropWhile_cons_of_neg (by simp [this])
  | succ i ih =>
    rw [List.replicate_succ, List.cons_append, List.dropWhile_cons_of_pos (by simp)]
    exact ih

theorem trimChar_eq (c : Char) (i j : Nat) (s : Str) (hs : s ≠ []) (hc : c ∉ s) :
    trimChar c (List.replicate i c ++ s ++ List.replicate j c) = s := by
  unfold trimChar
  have h1 : (s ++ List.replicate j c).head? ≠ some c := by
    cases s with
    | nil => exact absurd rfl hs
    | cons x xs => intro e; simp at e; exact hc (by simp [e])
  rw [List.append_assoc, dropWhile_replicate c i _ h1, List.reverse_append, List.reverse_replicate,
    dropWhile_replicate c j s.reverse, List.reverse_reverse]
  intro e
  have : c ∈ s.reverse := List.mem_of_mem_head? (by rw [e]; rfl)
  exact hc (by simpa using this)

theorem decimal_no_quote {s : Str} {n : Int} (h : Decimal s n) : s ≠ [] ∧ '"' ∉ s := by
  obtain ⟨l, h0, h1, h⟩ := h
  have ha := map_digits l h1
  have hq : '"' ∉ l.map dig := digits_not_mem ha (by decide)
  rcases h with ⟨rfl | rfl, -⟩ | ⟨rfl, -⟩
  · exact ⟨by simpa using h0, hq⟩
  · exact ⟨by simp, by simp only [List.mem_cons, not_or]; exact ⟨by decide, hq⟩⟩
  · exact ⟨by simp, by simp only [List.mem_cons, not_or]; exact ⟨by decide, hq⟩⟩

/-- C45: a marshalled timestamp is its decimal text, and is read back, bare or quoted. -/
theorem C45_roundtrip {t : Int} (h1 : -2 ^ 63 ≤ t) (h2 : t < 2 ^ 63) :
    Decimal (marshalTimestamp t) t ∧
    unmarshalTimestamp (marshalTimestamp t) = .ok t ∧
    unmarshalTimestamp ('"' :: (marshalTimestamp t ++ ['"'])) = .ok t := by
  have hp := parseInt_itoa t h1 h2
  have hd := ((parseInt_iff _ _).1 hp).1
  have hq := decimal_no_quote hd
  refine ⟨hd, ?_, ?_⟩
  · unfold unmarshalTimestamp marshalTimestamp
    have := trimChar_eq '"' 0 0 (itoa t) hq.1 hq.2
    simp only [List.replicate_zero, List.nil_append, List.append_nil] at this
    rw [this, hp]; rfl
  · unfold unmarshalTimestamp marshalTimestamp
    have := trimChar_eq '"' 1 1 (itoa t) hq.1 hq.2
    simp only [List.replicate_one, List.cons_append, List.nil_append] at this
    rw [this, hp]; rfl

example : marshalTimestamp (-62198755200) = c! "-62198755200" ∧ unmarshalTimestamp (c! "\"-62198755200\"") = .ok (-62198755200) := by decide +kernel

/-- C45: what unmarshalling accepts: decimal 64-bit integers between any number
of quotes. -/
theorem C45_accepts (b : Str) (n : Int) :
    unmarshalTimestamp b = .ok n ↔
      ∃ (i j : Nat) (s : Str), b = List.replicate i '"' ++ s ++ List.replicate j '"' ∧ Decimal s n ∧
        -2 ^ 63 ≤ n ∧ n < 2 ^ 63 := by
  unfold unmarshalTimestamp
  rw [Res.ofOption_eq_ok, parseInt_iff]
  constructor
  · rintro ⟨h1, h2⟩
    obtain ⟨i, j, h⟩ := trimChar_split '"' b
    exact ⟨i, j, _, h, h1, h2⟩
  · rintro ⟨i, j, s, rfl, h1, h2⟩
    have hq := decimal_no_quote h1
    rw [trimChar_eq '"' i j s hq.1 hq.2]
    exact ⟨h1, h2⟩

/-- C45 as stated ("optionally quoted") does not hold to the letter: unbalanced
quotes are accepted too.  (A JSON decoder never passes such text on.) -/
theorem C45_negation : unmarshalTimestamp (c! "\"\"\"12") = .ok 12 := rfl

example : unmarshalTimestamp (c! "-5e3") = .err .plain ∧ unmarshalTimestamp (c! "\"-5\"") = .ok (-5) := ⟨rfl, rfl⟩

/-! ### C47 -/

/-- C47: FlipYear negates every 64-bit year but the smallest, and is an
involution on all of them. -/
theorem C47_flip {y : Int} (h1 : -2 ^ 63 ≤ y) (h2 : y < 2 ^ 63) :
    (y ≠ -2 ^ 63 → flipYear y = -y) ∧ flipYear (flipYear y) = y := by
  have h := wrap_flip h1 h2
  refine ⟨fun hne => by unfold flipYear; rw [h, if_neg hne], ?_⟩
  unfold flipYear
  rw [h]
  by_cases e : y = -2 ^ 63
  · rw [if_pos e, wrap_flip (by decide) (by decide), if_pos rfl, e]
  · rw [if_neg e, wrap_flip (by omega) (by omega), if_neg (by omega)]; omega

example : flipYear (-44) = 44 ∧ flipYear (-2 ^ 63) = -2 ^ 63 := by decide +kernel

/-- C47: TimeToBCE negates the year and keeps month, day and time of day. -/
theorem C47_bce {f : Int → Nat → Nat → Int} (hf : DayCount f) {y : Int} {m d : Nat} (h : Valid y m d) {s : Int}
    (h0 : 0 ≤ s) (h1 : s < 86400) : Valid (-y) m d ∧ timeToBCE (86400 * f y m d + s) = 86400 * f (-y) m d + s := by
  have hv := valid_neg.2 h
  refine ⟨hv, ?_⟩
  rw [dayCount_eq hf h, dayCount_eq hf hv, Int.mul_comm 86400 (unixDay y m d), timeToBCE_eq h h0 h1, Int.mul_comm 86400]

example : Valid 4 2 29 ∧ timeToBCE (86400 * U 4 2 29 + 3661) = 86400 * U (-4) 2 29 + 3661 := by
  refine ⟨?_, by decide +kernel⟩
  unfold Valid
  decide

/-- C47: every instant is of the form treated in `C47_bce`, so that it covers them all. -/
theorem C47_every_instant {f : Int → Nat → Nat → Int} (hf : DayCount f) (t : Int) :
    ∃ (y : Int) (m d : Nat) (s : Int), Valid y m d ∧ 0 ≤ s ∧ s < 86400 ∧ t = 86400 * f y m d + s := by
  obtain ⟨y, m, d, s, hv, a, b, e⟩ := exists_fields t
  exact ⟨y, m, d, s, hv, a, b, by rw [dayCount_eq hf hv, e, Int.mul_comm]⟩

example : Valid 2000 2 29 ∧ Valid (-2000) 2 29 := by decide

/-! ### C48 -/

/-- C48 does not hold. -/
theorem C48_negation : L1.isExtendedInterval (c! "hello") = true := rfl

/-- C48, what holds: the strings named are recognised.  Missing: "only". -/
theorem C48_all_partial (s : Str) : L1.isExtendedInterval s = true := isExtendedInterval_true s

/-! ### C50 -/

/-- C50 does not hold. -/
theorem C50_negation : L2.isSetRepresentation (c! "[1667,1668}") = true ∧ (∃ d, parseString (c! "[1667,1668}") = .ok d) :=
  ⟨by decide +kernel, _, rfl⟩

/-- C50, what holds: it opens with one of the two opening brackets and closes
with one of the two closing ones.  Missing: that they match. -/
theorem C50_brackets_partial {s : Str} (h : L2.isSetRepresentation s = true) :
    ∃ (a b : Char) (t : Str), s = a :: (t ++ [b]) ∧ (a = '[' ∨ a = '{') ∧ (b = ']' ∨ b = '}') := by
  unfold L2.isSetRepresentation Rx.SetRepresentations at h
  rw [matchString_anch _ (by decide)] at h
  unfold Rx.setRepresentations at h
  rw [lang_cat] at h
  obtain ⟨u, v, rfl, hu, hv⟩ := h
  rw [lang_cat] at hv
  obtain ⟨w, z, rfl, -, hz⟩ := hv
  obtain ⟨b, rfl, hb⟩ := lang_cls.1 hz
  rw [lang_grp, lang_alt, lang_lit, lang_lit] at hu
  have hb' : b = ']' ∨ b = '}' := by
    simp [clsHas, inR_single] at hb
    rcases hb with h | h
    · exact Or.inr h
    · exact Or.inl h
  rcases hu with rfl | rfl
  · exact ⟨'[', b, w, rfl, Or.inl rfl, hb'⟩
  · exact ⟨'{', b, w, rfl, Or.inr rfl, hb'⟩

example : L2.isSetRepresentation (c! "[1667,1668..]") = true ∧ L2.isSetRepresentation (c! "{1667]") = true := by decide +kernel

end EDTF
