/- C19: sub-year groupings. -/
import Verif.LemmasL2
namespace EDTF
open Spec

variable {f : Int → Nat → Nat → Int}

/-! ### C19 -/

theorem grouping_table (g : Grouping) :
    25 ≤ g.code ∧ g.code ≤ 41 ∧ 1 ≤ g.firstMonth ∧ g.firstMonth ≤ 12 ∧ 1 ≤ g.lastMonth ∧ g.lastMonth ≤ 12 ∧
    (g.crosses = true → g.lastMonth = 2) ∧ (g.crosses = false → g.lastMonth ≠ 2) ∧
    L2.groupingMonths (pad2 g.code) =
      some (pad2 g.firstMonth, pad2 g.lastMonth, if g.crosses then [] else pad2 (monthLen 1 g.lastMonth), g.crosses) := by
  cases g with
  | north z => cases z <;> decide
  | south z => cases z <;> decide
  | quarter k => revert k; decide
  | quadrimester k => revert k; decide
  | semester k => revert k; decide

/-- Every code of the table is one of these. -/
theorem grouping_all {c : Nat} (h1 : 25 ≤ c) (h2 : c ≤ 41) : ∃ g : Grouping, g.code = c := by
  have tbl : ∀ c : Fin 42, 25 ≤ c.val → ([.north .spring, .north .summer, .north .fall, .north .winter, .south .spring, .south .summer, .south .fall,
    .south .winter, .quarter 0, .quarter 1, .quarter 2, .quarter 3, .quadrimester 0, .quadrimester 1, .quadrimester 2, .semester 0, .semester 1] :
      List Grouping).any (fun g => g.code == c.val) = true := by decide
  obtain ⟨g, -, h⟩ := List.any_eq_true.1 (tbl ⟨c, by omega⟩ h1)
  exact ⟨g, by simpa using h⟩

theorem monthLen_year {y y' : Int} {m : Nat} (h : m ≠ 2) : monthLen y m = monthLen y' m := by
  unfold monthLen; split <;> simp_all

theorem lang_groupCode {w : Str} : Lang ((Rx.lit '1' ⬝ .cls false [('0', '2')]) ∥ (Rx.lit '2' ⬝ .cls false [('1', '9')]) ∥
     (Rx.lit '3' ⬝ .cls false [('0', '9')]) ∥ (Rx.lit '4' ⬝ .cls false [('0', '1')])) w ↔
    ∃ m, m < 100 ∧ ((10 ≤ m ∧ m ≤ 12) ∨ (21 ≤ m ∧ m ≤ 41)) ∧ w = pad2 m :=
  lang_table2 _ (by decide) (by decide) ⟨_, rfl, by decide⟩ (by decide +kernel)

theorem lang_digits4 {w : Str} : Lang (Re.rep Rx.digit 4) w ↔ ∃ n, n < 10000 ∧ w = pad4 n := by
  constructor
  · intro h
    refine four_digits' (lang_digitsOnly (by decide) h) ?_
    have := lang_lens (Re.rep Rx.digit 4) [4] (by decide) w h
    simpa using this
  · rintro ⟨n, -, rfl⟩
    have h : ∀ k, Lang Rx.digit [dig (k % 10)] := fun k => by
      refine ⟨_, rfl, ?_⟩
      have := isDig_dig k
      simpa [clsHas, inR, isDig] using this
    exact ⟨[_], _, rfl, h _, [_], _, rfl, h _, [_], _, rfl, h _, h _⟩

/-- The text of a year and a grouping number reaches the grouping parser. -/
theorem parse_grouping {n k : Nat} (hn : n < 10000) (h1 : 25 ≤ k) (h2 : k ≤ 41) :
    parseString (pad4 n ++ '-' :: pad2 k) = L2.parseSubYearGroupings (pad4 n ++ '-' :: pad2 k) := by
  have nm : ∀ {c : Char}, isDig c = false → c ≠ '-' → c ∉ pad4 n ++ '-' :: pad2 k := by
    intro c a b hc
    rcases List.mem_append.1 hc with hc | hc
    · exact digits_not_mem (pad4_all n) a hc
    · rcases List.mem_cons.1 hc with hc | hc
      · exact b hc
      · exact pad2_not_mem k a hc
  have hp : (pad4 n ++ '-' :: pad2 k).all plainC = true := by
    rw [List.all_append, List.all_cons, plain_digits (pad4_all n), plain_digits (pad2_all k)]; rfl
  have h0 : L0.isLevel0 (pad4 n ++ '-' :: pad2 k) = false := number_not_level0 false n (by omega) (by omega)
  have hl1 : L1.isLevel1 (pad4 n ++ '-' :: pad2 k) = false := by
    refine not_level1_of (nm (by decide) (by decide)) (nm (by decide) (by decide)) ?_ ?_ ?_ ?_ ?_ ?_
    · intro h
      obtain ⟨u, v, e, hu, h⟩ := lang_cat.1 h
      obtain ⟨u', v', rfl, hu', h⟩ := lang_cat.1 h
      obtain ⟨neg, n', -, rfl⟩ := lang_year4'.1 hu
      obtain ⟨m', hm', hs, rfl⟩ := lang_seasonCode.1 h
      rw [lang_lit.1 hu'] at e
      have := (yearStr_append (neg := false) e).2
      injection this with _ this
      have := pad2_inj (by omega) hm' this
      unfold SeasonNum at hs
      omega
    · exact not_lang_of_must ['?', '~', '%'] (by decide) (by
        intro c hc
        simp only [List.mem_cons, List.not_mem_nil, or_false] at hc
        rcases hc with rfl | rfl | rfl <;> exact nm (by decide) (by decide))
    · intro h
      have h := (lang_ci_noLower (by decide) _ hp).1 h
      obtain ⟨u, v, e, hu, h⟩ := lang_cat.1 h
      have hul : u.length = 4 := by
        have := lang_lens (Re.rep Rx.digX 4) [4] (by decide) u hu
        simpa using this
      have e2 := (List.append_inj e (by rw [hul]; rfl)).2
      rcases lang_opt.1 h with h | h
      · rw [h] at e2; cases e2
      · obtain ⟨u', v', rfl, hu', h⟩ := lang_cat.1 h
        rw [lang_lit.1 hu'] at e2
        injection e2 with _ e2
        obtain ⟨w, r, rfl, hw, -⟩ := lang_cat.1 h
        obtain ⟨a, b, rfl, -, -⟩ := lang_monthX_DX hw
        injection e2 with e2 _
        have hk : dig (k / 10 % 10) ≠ '0' ∧ dig (k / 10 % 10) ≠ '1' ∧ dig (k / 10 % 10) ≠ 'X' := by
          have : k / 10 % 10 = 2 ∨ k / 10 % 10 = 3 ∨ k / 10 % 10 = 4 := by omega
          rcases this with h | h | h <;> rw [h] <;> decide
        rw [e2] at hk
        rcases lang_monthX_iff.1 hw with ⟨h | h, -⟩ | ⟨h | h, -⟩
        · exact hk.1 h
        · exact hk.2.2 h
        · exact hk.2.1 h
        · exact hk.2.2 h
    · exact not_lang_of_must ['/'] (by decide) (by simpa using nm (c := '/') (by decide) (by decide))
    · exact not_lang_of_must ['/'] (by decide) (by simpa using nm (c := '/') (by decide) (by decide))
    · intro h
      obtain ⟨u, v, e, hu, -⟩ := lang_cat.1 h
      rw [lang_lit.1 hu] at e
      injection e with e _
      exact dig_mod_ne _ (by decide) e
  have hsub : L2.isSubYearGrouping (pad4 n ++ '-' :: pad2 k) = true := by
    rw [isSubYear_iff]
    exact lang_cat.2 ⟨_, _, rfl, lang_digits4.2 ⟨n, hn, rfl⟩, lang_cat.2 ⟨['-'], _, rfl, lang_lit.2 rfl,
      lang_groupCode.2 ⟨k, by omega, by omega, rfl⟩⟩⟩
  rw [parse_level2 h0 hl1 (isLevel2_of (Or.inr (Or.inr (Or.inl hsub))))]
  unfold L2.parseString
  rw [not_exponential hp (Or.inl (nm (by decide) (by decide))), not_sig (nm (by decide) (by decide)), hsub]
  rfl

theorem subYear_submatch {n k : Nat} (hn : n < 10000) (h1 : 25 ≤ k) (h2 : k ≤ 41) :
    ∃ m, Rx.SubYearGrouping.submatch (pad4 n ++ '-' :: pad2 k) = some m ∧ m 1 = pad4 n ∧ m 2 = pad2 k := by
  have hsub : L2.isSubYearGrouping (pad4 n ++ '-' :: pad2 k) = true := by
    rw [isSubYear_iff]
    exact lang_cat.2 ⟨_, _, rfl, lang_digits4.2 ⟨n, hn, rfl⟩, lang_cat.2 ⟨['-'], _, rfl, lang_lit.2 rfl,
      lang_groupCode.2 ⟨k, by omega, by omega, rfl⟩⟩⟩
  unfold L2.isSubYearGrouping at hsub
  rw [← isSome_submatch, Option.isSome_iff_exists] at hsub
  obtain ⟨m, hm⟩ := hsub
  obtain ⟨e, h⟩ := subYear_caps hm
  obtain ⟨n', -, e'⟩ := lang_digits4.1 h
  rw [e'] at e
  obtain ⟨a, b⟩ := List.append_inj e rfl
  injection b with _ b
  exact ⟨m, hm, by rw [e', a], b.symm⟩

theorem itoa_nat {n : Nat} : itoa (n : Int) = natDigits n := by
  unfold itoa; rw [if_neg (by omega), Int.natAbs_natCast]

/-- C19: the months of the grouping, for every year and code, except that a
grouping from December to February needs a following year of four digits
without leading zeros. -/
theorem C19_months_partial (hf : DayCount f) {n : Nat} (hn : n < 10000) (g : Grouping) (hc : g.crosses = true → 999 ≤ n ∧ n ≤ 9998) :
    ∃ r, parseString (pad4 n ++ '-' :: pad2 g.code) = .ok r ∧
      r = { start := some ((dayOf n g.firstMonth 1).range f (dayOf n g.firstMonth 1).text 0 0 Prec.YEAR)
            stop := some ((g.lastDate n).range f (g.lastDate n).text 0 0 Prec.YEAR)
            edtf := pad4 n ++ '-' :: pad2 g.code
            level := 2
            feature := c! "Sub-year groupings" } ∧
      r.lower = .ok (86400 * f n g.firstMonth 1) ∧
      r.upper = .ok (86400 * f (g.lastYear n) g.lastMonth (monthLen (g.lastYear n) g.lastMonth) + 86399) := by
  obtain ⟨t1, t2, t3, t4, t5, t6, t7, t8, t9⟩ := grouping_table g
  obtain ⟨m, hm, m1, m2⟩ := subYear_submatch hn t1 t2
  have hv : (dayOf n g.firstMonth 1).ok := dayOf_ok (by omega) (valid_first t3 t4)
  have hw : (g.lastDate n).ok := by
    unfold Grouping.lastDate
    by_cases hx : g.crosses = true
    · rw [if_pos hx]; exact ⟨by have := hc hx; show n + 1 < 10000; omega, t5, t6⟩
    · rw [if_neg hx]; exact ⟨hn, valid_last t5 t6⟩
  have hdt : (dayOf n g.firstMonth 1).text = pad4 n ++ c! "-" ++ pad2 g.firstMonth ++ c! "-01" := by
    rw [date0_text]
    have : ¬ ((n : Int) < 0) := by omega
    simp [dayOf, yearStr, sgn, this]
    rfl
  have key : L2.parseSubYearGroupings (pad4 n ++ '-' :: pad2 g.code) = .ok
      { start := some ((dayOf n g.firstMonth 1).range f (dayOf n g.firstMonth 1).text 0 0 Prec.YEAR)
        stop := some ((g.lastDate n).range f (g.lastDate n).text 0 0 Prec.YEAR)
        edtf := pad4 n ++ '-' :: pad2 g.code
        level := 2
        feature := c! "Sub-year groupings" } := by
    unfold L2.parseSubYearGroupings
    rw [hm]
    simp only [m1, m2, t9]
    have hstr : (do
        let end_yyyy ← L2.groupingEndYear (pad4 n) g.crosses
        Res.ok (L2.groupingString (pad4 n) (pad2 g.firstMonth) end_yyyy (pad2 g.lastMonth) (if g.crosses then [] else pad2 (monthLen 1 g.lastMonth)))) =
        Res.ok ((dayOf n g.firstMonth 1).text ++ '/' :: (g.lastDate n).text) := by
      rw [hdt]
      by_cases hx : g.crosses = true
      · have := hc hx
        unfold L2.groupingEndYear L2.groupingString Grouping.lastDate
        simp only [hx, if_true, atoi_pad4 hn, Res.ofOption, Res.ok_bind]
        rw [date0_text, show (n : Int) + 1 = ((n + 1 : Nat) : Int) by omega, itoa_nat, natDigits_four (by omega) (by omega)]
        simp [yearStr, sgn]
      · unfold L2.groupingEndYear L2.groupingString Grouping.lastDate
        simp only [hx, Bool.false_eq_true, if_false, Res.ok_bind]
        rw [date0_text, if_pos (pad2_ne_nil _), monthLen_year (y := 1) (y' := n) (t8 (by simpa using hx))]
        simp [yearStr, sgn]
    cases he : L2.groupingEndYear (pad4 n) g.crosses with
    | err e => rw [he] at hstr; cases hstr
    | panic => rw [he] at hstr; cases hstr
    | ok ey =>
      rw [he, Res.ok_bind] at hstr
      injection hstr with hstr
      rw [Res.ok_bind, hstr]
      have := span_sides (l := .date (dayOf n g.firstMonth 1)) (r := .date (g.lastDate n)) hv hw
      have e1 : (Side.date (dayOf n g.firstMonth 1)).text = (dayOf n g.firstMonth 1).text := rfl
      have e2 : (Side.date (g.lastDate n)).text = (g.lastDate n).text := rfl
      rw [e1, e2, side_congr hf (x := .date (dayOf n g.firstMonth 1)) hv, side_congr hf (x := .date (g.lastDate n)) hw] at this
      rw [this]
      rfl
  refine ⟨_, by rw [parse_grouping hn t1 t2, key], rfl, ?_, ?_⟩
  · simp [EDTFDate.lower, Date0.range, dayStart, dayEnd, dated, dayOf_value]
    rfl
  · have hval : (g.lastDate n).value = g.lastYear n ∧ (g.lastDate n).last = (g.lastMonth, monthLen (g.lastYear n) g.lastMonth) := by
      unfold Grouping.lastDate Grouping.lastYear
      cases g.crosses <;> exact ⟨rfl, rfl⟩
    simp [EDTFDate.upper, Date0.range, dayStart, dayEnd, dated, hval.1, hval.2]

example : pad4 2001 ++ '-' :: pad2 (Grouping.quarter 1).code = c! "2001-34" ∧ (Grouping.quarter 1).firstMonth = 4 ∧
    (Grouping.quarter 1).lastMonth = 6 ∧ (Grouping.quarter 1).crosses = false := by decide
example : pad4 2003 ++ '-' :: pad2 (Grouping.north .winter).code = c! "2003-28" ∧ (Grouping.north .winter).lastYear 2003 = 2004 ∧
    monthLen (2004 : Nat) 2 = 29 := by decide

/-- C19, the exception: a grouping from December to February of the years
0000-0998 and 9999 is an error. -/
theorem C19_crossing_partial {n : Nat} (hn : n < 10000) (g : Grouping) (hx : g.crosses = true) (h : n < 999 ∨ n = 9999) :
    ∃ e, parseString (pad4 n ++ '-' :: pad2 g.code) = .err e ∧ isInvalid e = true := by
  obtain ⟨t1, t2, t3, t4, t5, t6, t7, t8, t9⟩ := grouping_table g
  obtain ⟨m, hm, m1, m2⟩ := subYear_submatch hn t1 t2
  have hv : (dayOf n g.firstMonth 1).ok := dayOf_ok (by omega) (valid_first t3 t4)
  have hdt : (Side.date (dayOf n g.firstMonth 1)).text = pad4 n ++ c! "-" ++ pad2 g.firstMonth ++ c! "-01" := by
    show (dayOf n g.firstMonth 1).text = _
    rw [date0_text]
    have : ¬ ((n : Int) < 0) := by omega
    simp [dayOf, yearStr, sgn, this]
    rfl
  rw [parse_grouping hn t1 t2]
  unfold L2.parseSubYearGroupings
  rw [hm]
  simp only [m1, m2, t9, hx]
  unfold L2.groupingEndYear L2.groupingString
  simp only [if_true, atoi_pad4 hn, Res.ofOption, Res.ok_bind]
  rw [← hdt, show (n : Int) + 1 = ((n + 1 : Nat) : Int) by omega, itoa_nat]
  have hlen : (natDigits (n + 1)).length ≠ 4 := by
    have a := natDigits_length_le (n := n + 1) (k := 3) (by decide)
    have b := natDigits_length_le (n := n + 1) (k := 4) (by decide)
    omega
  obtain ⟨he, -⟩ := halfSpan_digits (t := '-' :: pad2 g.lastMonth) false (natDigits_all _) (natDigits_ne_nil _) hlen (Or.inr ⟨_, rfl⟩)
  obtain ⟨e1, e2, a, b, hh, -⟩ := halfSpan_side (x := .date (dayOf n g.firstMonth 1)) hv
  have ns : '/' ∉ natDigits (n + 1) ++ '-' :: pad2 g.lastMonth := by
    intro hm
    rcases List.mem_append.1 hm with hm | hm
    · exact digits_not_mem (natDigits_all _) (by decide) hm
    · rcases List.mem_cons.1 hm with hm | hm
      · exact absurd hm (by decide)
      · exact pad2_not_mem _ (by decide) hm
  refine ⟨Invalid (c! "date") (natDigits (n + 1) ++ '-' :: pad2 g.lastMonth), ?_, rfl⟩
  have e : (Side.date (dayOf n g.firstMonth 1)).text ++ c! "/" ++ (natDigits (n + 1) ++ c! "-" ++ pad2 g.lastMonth) =
      (Side.date (dayOf n g.firstMonth 1)).text ++ '/' :: (natDigits (n + 1) ++ '-' :: pad2 g.lastMonth) := by simp
  simp only [ne_eq, not_true_eq_false, if_false]
  rw [e, dateSpanFromEDTF_slash (side_slash _) ns, hh, Res.ok_bind]
  have hs : sgn false (natDigits (n + 1)) = natDigits (n + 1) := rfl
  rw [hs] at he
  rw [he]
  rfl

example : (Grouping.north .winter).crosses = true ∧ pad4 998 ++ '-' :: pad2 (Grouping.north .winter).code = c! "0998-28" ∧ ∃ e, parseString (c! "0998-28") = .err e :=
  ⟨rfl, rfl, _, rfl⟩

/-- C19 does not hold: the northern winter of the year 500. -/
theorem C19_negation : (∃ e, parseString (c! "0500-28") = .err e) ∧ (∃ e, parseString (c! "9999-30") = .err e) := by
  constructor
  · obtain ⟨e, h, -⟩ := C19_crossing_partial (n := 500) (by omega) (.north .winter) rfl (by omega)
    exact ⟨e, h⟩
  · obtain ⟨e, h, -⟩ := C19_crossing_partial (n := 9999) (by omega) (.south .summer) rfl (by omega)
    exact ⟨e, h⟩

end EDTF
