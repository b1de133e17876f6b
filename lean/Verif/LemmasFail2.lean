/-
The errors of Level 2: single dates, intervals and sub-year groupings.
-/
import Verif.LemmasFail1
import Verif.LemmasJson
namespace EDTF
open Spec

/-- The characters of a single date of Level 2. -/
structure Plainish (s : Str) : Prop where
  nm : ∀ {c : Char}, isDX c = false → c ≠ '-' → isQ c = false → c ∉ s
  hd : ∀ t, s ≠ '-' :: t
  pl : s.all plainC = true

theorem qtext_plainish {x : Date0} {qy qm qd : Deco} (hw : Date0.wide x) (hq : Date0.qOk x qy qm qd) : Plainish (x.qtext qy qm qd) := by
  have hs := qE_shape hq
  rw [← qE_text]
  exact ⟨fun h1 h2 h3 => e_not_mem hs h1 h2 h3, e_head hs hw.1, e_plain hs⟩

theorem single_plainish {s : Str} (h : GroupForm s ∨ EndpointForm false [] s ∨ DigitForm (c! "X") s) : Plainish s := by
  rcases h with h | h | h
  · obtain ⟨x, qy, qm, qd, hw, hq, hl, rfl⟩ := lang_group.1 (lang_groupForm (g := 1).2 h)
    exact qtext_plainish hw hq
  · obtain ⟨x, qy, qm, qd, hw, hq, hl, rfl⟩ := lang_individual.1 (lang_individualForm (g := 1).2 h)
    exact qtext_plainish hw hq
  · have hE : EndpointForm true (c! "X") s := by
      obtain ⟨y, t, hy, rfl, ht⟩ := h
      refine ⟨[], false, y, t, .inl rfl, (fun h => absurd h (by decide)), hy, rfl, ?_⟩
      rcases ht with rfl | ⟨m, u, hm, rfl, hu⟩
      · exact .inl rfl
      · refine .inr ⟨[], m, u, .inl rfl, hm, rfl, ?_⟩
        rcases hu with rfl | ⟨d, hd, rfl⟩
        · exact .inl rfl
        · exact .inr ⟨[], d, .inl rfl, hd, rfl⟩
    obtain ⟨e, he, ee⟩ := elang_inv (lang_halfForm (g := 1).2 hE)
    refine ⟨fun h1 h2 h3 => by rw [ee]; exact e_not_mem he.1 h1 h2 h3, ?_, by rw [ee]; exact e_plain he.1⟩
    obtain ⟨y, t, ⟨hl, hy⟩, rfl, ht⟩ := h
    intro t' e
    obtain ⟨c, y, rfl⟩ := List.exists_cons_of_ne_nil (l := y) (by rintro rfl; cases hl)
    injection e with e _
    exact absurd (hy c (by simp)) (by rw [e]; decide)

theorem acc_qualified_pos {x : Date0} (hx : x.shaped) (hn : x.neg = false) {q : Char} (hq : q ∈ c! "?~%") : Accepted (x.text ++ [q]) := by
  obtain ⟨hy, hs⟩ := shaped_iff.1 hx
  obtain ⟨neg, n, tl⟩ := x
  simp only at hn hy
  subst hn
  cases tl with
  | none => rw [date0_year]; exact .qualifiedYear false n hy q hq
  | month m => rw [month_text]; exact .month false n m hy hs.1 hs.2 (by left; simp) _ (.qualifier _ q hq)
  | day m d =>
    obtain ⟨m1, m2, d1, d2⟩ := hs
    rw [day_text]
    exact .month false n m hy m1 m2 (by left; simp) _ (.dayQualifier _ d d1 d2 q hq)

theorem single_eval {s : Str} (h : GroupForm s ∨ EndpointForm false [] s ∨ DigitForm (c! "X") s) (hse : ¬ SeasonForm s) (hsy : ¬ SubYearForm s)
    (na : ¬ Accepted s) : ∃ l f, parseString s = (dateSpanFromYMD s >>= fun sp => .ok (mkEDTF sp s l f)) := by
  obtain ⟨nm, hd, hpl⟩ := single_plainish h
  have ns := nm (c := '/') (by decide) (by decide) (by decide)
  have hE : dateSpanFromEDTF s = dateSpanFromYMD s := dateSpanFromEDTF_noSlash ns
  cases h0 : L0.isDate s with
  | true => exact ⟨_, _, date_eval ((C58_date s).1 h0)⟩
  | false =>
    have h0 := no_slash_level0 ns (nm (by decide) (by decide) (by decide)) h0
    cases h1 : L1.isLevel1 s with
    | true =>
      rcases (C61_level1_partial s).1 h1 with k | k | k | k | k | k | k | k
      · obtain ⟨y, hy, neg, ds, -, rfl⟩ := k
        rw [List.mem_singleton.1 hy] at nm
        exact absurd (by simp) (nm (c := 'Y') (by decide) (by decide) (by decide))
      · exact absurd k hse
      · obtain ⟨w, t1, t2, z, n, -, -, -, -, rfl⟩ := k
        exact absurd (by simp) (nm (c := ',') (by decide) (by decide) (by decide))
      · obtain ⟨d, ⟨x, hx, rfl⟩, q, hq, rfl⟩ := k
        refine absurd (acc_qualified_pos hx ?_ hq) na
        obtain ⟨neg, n, tl⟩ := x
        cases neg with
        | false => rfl
        | true => rw [date0_text] at hd; exact absurd rfl (hd _)
      · rcases unspec_eval h0 k na with ⟨-, ev⟩ | ⟨k2, -⟩
        · exact ⟨_, _, ev⟩
        · refine absurd ?_ k2
          rw [← lang_unspecifiedForm (g := 1)]
          rw [← lang_unspecifiedForm' (g := 1)] at k
          exact (lang_ci_noLower (by decide) s hpl).1 k
      · obtain ⟨l, d, -, -, rfl⟩ := k
        exact absurd (by simp) ns
      · obtain ⟨l, d, -, -, rfl⟩ := k
        exact absurd (by simp) ns
      · obtain ⟨neg, n, -, rfl⟩ := k
        exact absurd rfl (hd _)
    | false =>
      rw [← C60_group, ← C60_individual, ← C60_digit] at h
      rw [← C60_subyear, Bool.not_eq_true] at hsy
      have h2 : L2.isLevel2 s = true := isLevel2_of (by rcases h with h | h | h <;> simp [h])
      rw [parse_level2 h0 h1 h2]
      unfold L2.parseString
      rw [not_exponential hpl (Or.inl (nm (by decide) (by decide) (by decide))), not_sig (nm (by decide) (by decide) (by decide)), hsy,
        not_set (fun c hc => by
          rcases List.mem_cons.1 hc with rfl | hc
          · exact nm (by decide) (by decide) (by decide)
          · rw [List.mem_singleton] at hc
            subst hc
            exact nm (by decide) (by decide) (by decide))]
      simp only [Bool.false_eq_true, if_false]
      cases hg : L2.isGroupQualification s with
      | true =>
        rw [if_pos rfl]
        unfold L2.parseGroupQualification
        rw [show Rx.GroupQualification.matchString s = true from hg, if_neg (by simp), hE]
        exact ⟨_, _, rfl⟩
      | false =>
        cases hi : L2.isIndividualQualification s with
        | true =>
          rw [if_neg (by simp), if_pos rfl]
          unfold L2.parseIndividualQualification
          rw [show Rx.IndividualQualification.matchString s = true from hi, if_neg (by simp), hE]
          exact ⟨_, _, rfl⟩
        | false =>
          have hu : L2.isUnspecifiedDigit s = true := by
            rcases h with h | h | h
            · rw [hg] at h; cases h
            · rw [hi] at h; cases h
            · exact h
          rw [if_neg (by simp), if_neg (by simp), hu, if_pos rfl]
          unfold L2.parseUnspecifiedDigit
          rw [show Rx.UnspecifiedDigit.matchString s = true from hu, if_neg (by simp), hE]
          exact ⟨_, _, rfl⟩

/-- All single dates. -/
theorem single_eval' {s : Str} (h : DateShape s ∨ UnspecifiedForm (c! "X") s ∨ GroupForm s ∨ EndpointForm false [] s ∨ DigitForm (c! "X") s)
    (hse : ¬ SeasonForm s) (hsy : ¬ SubYearForm s) (na : ¬ Accepted s) :
    ∃ l f, parseString s = (dateSpanFromYMD s >>= fun sp => .ok (mkEDTF sp s l f)) := by
  rcases h with h | h | h
  · exact ⟨_, _, date_eval h⟩
  · have hD : DigitForm (c! "X") s := by
      have pl2 : ∀ {w : Str}, MonthShape (c! "X") w → Places 2 (c! "X") w := by
        rintro _ ⟨a, b, rfl, h⟩
        refine ⟨rfl, fun c hc => ?_⟩
        have t1 : ∀ c ∈ c! "0" ++ c! "X", c ∈ c! "0123456789" ++ c! "X" := by decide
        have t2 : ∀ c ∈ c! "123456789" ++ c! "X", c ∈ c! "0123456789" ++ c! "X" := by decide
        have t3 : ∀ c ∈ c! "1" ++ c! "X", c ∈ c! "0123456789" ++ c! "X" := by decide
        have t4 : ∀ c ∈ c! "012" ++ c! "X", c ∈ c! "0123456789" ++ c! "X" := by decide
        simp only [List.mem_cons, List.not_mem_nil, or_false] at hc
        rcases hc with rfl | rfl <;> rcases h with h | h
        · exact t1 _ h.1
        · exact t3 _ h.1
        · exact t2 _ h.2
        · exact t4 _ h.2
      have pl2' : ∀ {w : Str}, DayShape (c! "X") w → Places 2 (c! "X") w := by
        rintro _ ⟨a, b, rfl, h⟩
        refine ⟨rfl, fun c hc => ?_⟩
        have t1 : ∀ c ∈ c! "012" ++ c! "X", c ∈ c! "0123456789" ++ c! "X" := by decide
        have t2 : ∀ c ∈ c! "123456789" ++ c! "X", c ∈ c! "0123456789" ++ c! "X" := by decide
        have t3 : ∀ c ∈ c! "3" ++ c! "X", c ∈ c! "0123456789" ++ c! "X" := by decide
        have t4 : ∀ c ∈ c! "01" ++ c! "X", c ∈ c! "0123456789" ++ c! "X" := by decide
        simp only [List.mem_cons, List.not_mem_nil, or_false] at hc
        rcases hc with rfl | rfl <;> rcases h with h | h
        · exact t1 _ h.1
        · exact t3 _ h.1
        · exact t2 _ h.2
        · exact t4 _ h.2
      obtain ⟨y, t, hy, rfl, ht⟩ := h
      refine ⟨y, t, hy, rfl, ?_⟩
      rcases ht with rfl | ⟨m, u, hm, rfl, hu⟩
      · exact .inl rfl
      · refine .inr ⟨m, u, pl2 hm, rfl, ?_⟩
        rcases hu with rfl | ⟨d, hd, rfl⟩
        · exact .inl rfl
        · exact .inr ⟨d, pl2' hd, rfl⟩
    exact single_eval (.inr (.inr hD)) hse hsy na
  · exact single_eval h hse hsy na

theorem single_err {s : Str} (h : DateShape s ∨ UnspecifiedForm (c! "X") s ∨ GroupForm s ∨ EndpointForm false [] s ∨ DigitForm (c! "X") s)
    (hse : ¬ SeasonForm s) (hsy : ¬ SubYearForm s) (na : ¬ Accepted s) {e : Err} : parseString s = .err e ↔ DateFails s e := by
  obtain ⟨l, f, ev⟩ := single_eval' h hse hsy na
  rw [ev, mk_err_iff, date_err_iff]

theorem unspec_chars {s : Str} (h : UnspecifiedForm (c! "Xx") s) {c : Char} (hc : c ∈ s) : c ∈ c! "0123456789-Xx" := by
  have p : ∀ {n : Nat} {w : Str}, Places n (c! "Xx") w → ∀ c ∈ w, c ∈ c! "0123456789-Xx" := by
    intro n w h c hc
    have tb : ∀ c ∈ c! "0123456789" ++ c! "Xx", c ∈ c! "0123456789-Xx" := by decide
    exact tb c (h.2 c hc)
  have q : ∀ {A B C D : Str} {w : Str}, (∃ a b, w = [a, b] ∧ ((a ∈ A ∧ b ∈ B) ∨ (a ∈ C ∧ b ∈ D))) →
      (∀ c ∈ A, c ∈ c! "0123456789-Xx") → (∀ c ∈ B, c ∈ c! "0123456789-Xx") → (∀ c ∈ C, c ∈ c! "0123456789-Xx") → (∀ c ∈ D, c ∈ c! "0123456789-Xx") →
      ∀ c ∈ w, c ∈ c! "0123456789-Xx" := by
    rintro A B C D w ⟨a, b, rfl, h⟩ hA hB hC hD c hc
    simp only [List.mem_cons, List.not_mem_nil, or_false] at hc
    rcases hc with rfl | rfl <;> rcases h with h | h
    · exact hA _ h.1
    · exact hC _ h.1
    · exact hB _ h.2
    · exact hD _ h.2
  obtain ⟨y, t, hy, rfl, ht⟩ := h
  rcases List.mem_append.1 hc with hc | hc
  · exact p hy c hc
  rcases ht with rfl | ⟨m, u, hm, rfl, hu⟩
  · cases hc
  rcases List.mem_cons.1 hc with rfl | hc
  · decide
  rcases List.mem_append.1 hc with hc | hc
  · exact q hm (by decide) (by decide) (by decide) (by decide) c hc
  rcases hu with rfl | ⟨d, hd, rfl⟩
  · cases hc
  rcases List.mem_cons.1 hc with rfl | hc
  · decide
  · exact q hd (by decide) (by decide) (by decide) (by decide) c hc

theorem small_err {s : Str} (h : UnspecifiedForm (c! "Xx") s) (h1 : ¬ UnspecifiedForm (c! "X") s) (na : ¬ Accepted s) :
    parseString s = .err (.invalid (c! "Extended Interval") s) := by
  have hx : 'x' ∈ s := by
    apply Classical.byContradiction
    intro hx
    refine h1 ?_
    rw [← lang_unspecifiedForm (g := 1)]
    rw [← lang_unspecifiedForm' (g := 1)] at h
    refine (lang_ci_noLower (by decide) s ?_).1 h
    rw [List.all_eq_true]
    intro c hc
    have tb : ∀ c ∈ c! "0123456789-Xx", c ≠ 'x' → plainC c = true := by decide
    exact tb c (unspec_chars (lang_unspecifiedForm' (g := 1).1 h) hc) (by rintro rfl; exact hx hc)
  have h0 : L0.isLevel0 s = false := not_level0_of hx (by decide) (by decide)
  rcases unspec_eval h0 h na with ⟨k, -⟩ | ⟨-, k⟩
  · exact absurd k h1
  · exact k

/-! ### Numerals -/

theorem value10_snoc (ds : List Nat) (d : Nat) : value10 (ds ++ [d]) = 10 * value10 ds + d := by
  simp [value10, List.foldl_append]

theorem natDigits_unique (k : Nat) : ∀ {ds : List Nat}, ds.length = k → Digits ds → (ds.head? = some 0 → ds = [0]) → natDigits (value10 ds) = ds.map dig := by
  induction k with
  | zero => intro ds hl hd; exact absurd (List.length_eq_zero_iff.1 hl) hd.1
  | succ k ih =>
    intro ds hl hd h0
    rcases List.eq_nil_or_concat ds with rfl | ⟨es, d, rfl⟩
    · cases hl
    rw [List.concat_eq_append] at *
    have hd10 : d < 10 := hd.2 d (by simp)
    rw [value10_snoc]
    by_cases he : es = []
    · subst he
      rw [show value10 [] = 0 from rfl, natDigits_lt (by omega)]
      simp
    have hes : Digits es := ⟨he, fun x hx => hd.2 x (by simp [hx])⟩
    have hh : es.head? ≠ some 0 := by
      intro h
      obtain ⟨a, es', rfl⟩ := List.exists_cons_of_ne_nil he
      have := h0 (by simpa using h)
      simp at this
    have := ih (by simpa using hl) hes (fun h => absurd h hh)
    have hpos : 1 ≤ value10 es := by
      apply Classical.byContradiction
      intro hz
      rw [show value10 es = 0 by omega, natDigits_lt (by omega)] at this
      match es, he with
      | a :: es', _ =>
        simp only [List.map_cons, List.cons.injEq] at this
        have ha := hes.2 a (by simp)
        have tb : ∀ a, a < 10 → dig 0 = dig a → a = 0 := by decide
        have := tb a ha this.1
        subst this
        exact hh rfl
    rw [natDigits_ge (by omega), show (10 * value10 es + d) / 10 = value10 es by omega, show (10 * value10 es + d) % 10 = d by omega, this]
    simp

theorem itoa_signed (v : Int) : itoa v = signed (decide (v < 0)) (natDigits v.natAbs) := by
  unfold itoa signed
  by_cases h : v < 0 <;> simp [h]

theorem numeral_iff {v : Int} {t : Str} : Numeral v t ↔ t = itoa v := by
  constructor
  · rintro ⟨ds, hd, h0, hv, rfl⟩
    rw [itoa_signed, ← hv, natDigits_unique _ rfl hd h0]
  · rintro rfl
    obtain ⟨ds, hd, e⟩ := digits_iff.1 ⟨natDigits_all v.natAbs, natDigits_ne_nil v.natAbs⟩
    refine ⟨ds, hd, fun h => ?_, ?_, by rw [itoa_signed, e]⟩
    · match ds, h with
      | a :: es, h =>
        have : a = 0 := by simpa using h
        subst this
        rcases natDigits_head v.natAbs with ⟨-, hz⟩ | ⟨c, s, hz, hc, -⟩
        · rw [hz] at e
          simp only [List.map_cons, List.cons.injEq] at e
          rw [List.map_eq_nil_iff.1 e.2.symm]
        · rw [hz] at e
          simp only [List.map_cons, List.cons.injEq] at e
          exact absurd e.1 hc
    · rw [← digitsVal_map ds hd.2, ← e, digitsVal_natDigits]

/-! ### Sub-year groupings -/

theorem grouping_eval {n : Nat} (hn : n < 10000) (g : Grouping) (hx : g.crosses = true) (h : n < 999 ∨ n = 9999) :
    parseString (pad4 n ++ '-' :: pad2 g.code) = .err (.invalid (c! "date") (itoa (n + 1) ++ c! "-02")) := by
  obtain ⟨t1, t2, t3, t4, t5, t6, t7, t8, t9⟩ := grouping_table g
  obtain ⟨m, hm, m1, m2⟩ := subYear_submatch hn t1 t2
  have hv : (dayOf n g.firstMonth 1).ok := dayOf_ok (by omega) (valid_first t3 t4)
  have hdt : (Side.date (dayOf n g.firstMonth 1)).text = pad4 n ++ c! "-" ++ pad2 g.firstMonth ++ c! "-01" := by
    show (dayOf n g.firstMonth 1).text = _
    rw [date0_text]
    have : ¬ ((n : Int) < 0) := by omega
    simp [dayOf, yearStr, sgn, this]
    rfl
  rw [parse_grouping hn t1 t2]
  unfold L2.parseSubYearGroupings
  rw [hm]
  simp only [m1, m2, t9, hx]
  unfold L2.groupingEndYear L2.groupingString
  simp only [if_true, atoi_pad4 hn, Res.ofOption, Res.ok_bind]
  rw [← hdt, show (n : Int) + 1 = ((n + 1 : Nat) : Int) by omega, itoa_nat]
  have hlen : (natDigits (n + 1)).length ≠ 4 := by
    have a := natDigits_length_le (n := n + 1) (k := 3) (by decide)
    have b := natDigits_length_le (n := n + 1) (k := 4) (by decide)
    omega
  obtain ⟨he, -⟩ := halfSpan_digits (t := '-' :: pad2 g.lastMonth) false (natDigits_all _) (natDigits_ne_nil _) hlen (Or.inr ⟨_, rfl⟩)
  obtain ⟨e1, e2, a, b, hh, -⟩ := halfSpan_side (x := .date (dayOf n g.firstMonth 1)) hv
  have ns : '/' ∉ natDigits (n + 1) ++ '-' :: pad2 g.lastMonth := by
    intro hm
    rcases List.mem_append.1 hm with hm | hm
    · exact digits_not_mem (natDigits_all _) (by decide) hm
    · rcases List.mem_cons.1 hm with hm | hm
      · exact absurd hm (by decide)
      · exact pad2_not_mem _ (by decide) hm
  have e : (Side.date (dayOf n g.firstMonth 1)).text ++ c! "/" ++ (natDigits (n + 1) ++ c! "-" ++ pad2 g.lastMonth) =
      (Side.date (dayOf n g.firstMonth 1)).text ++ '/' :: (natDigits (n + 1) ++ '-' :: pad2 g.lastMonth) := by simp
  simp only [ne_eq, not_true_eq_false, if_false]
  rw [e, dateSpanFromEDTF_slash (side_slash _) ns, hh, Res.ok_bind]
  have hs : sgn false (natDigits (n + 1)) = natDigits (n + 1) := rfl
  rw [hs] at he
  rw [he, t7 hx]
  rfl

theorem grouping_err {n : Nat} (hn : n < 10000) (g : Grouping) (hg : g.crosses = true) (h : n < 999 ∨ n = 9999) {t : Str} (ht : Numeral (n + 1) t) :
    parseString (pad4 n ++ '-' :: pad2 g.code) = .err (.invalid (c! "date") (t ++ c! "-02")) := by
  rw [numeral_iff.1 ht]
  exact grouping_eval hn g hg h

theorem fail_subYear {s : Str} (h0 : L0.isLevel0 s = false) (h1 : L1.isLevel1 s = false) (h : SubYearForm s) {e : Err} (hp : parseString s = .err e) : Fails s e := by
  have na := not_acc_of_err hp
  obtain ⟨n, m, hn, hm, rfl⟩ := h
  rcases hm with ⟨m1, m2⟩ | ⟨m1, m2⟩
  · have := month_level0 false hn (show 1 ≤ m by omega) m2
    rw [show pad4 n ++ '-' :: pad2 m = yearStr false n ++ '-' :: pad2 m from rfl, this] at h0
    cases h0
  · by_cases hm : m ≤ 24
    · have := season_level1 false hn m1 hm
      rw [show pad4 n ++ '-' :: pad2 m = yearStr false n ++ '-' :: pad2 m from rfl, this] at h1
      cases h1
    · obtain ⟨g, rfl⟩ := grouping_all (show 25 ≤ m by omega) m2
      by_cases hx : g.crosses = true ∧ (n < 999 ∨ n = 9999)
      · rw [grouping_eval hn g hx.1 hx.2] at hp
        injection hp with hp
        subst hp
        exact .grouping n hn g hx.1 hx.2 _ (numeral_iff.2 rfl)
      · refine absurd (.grouping n hn g fun k => ?_) na
        have : ¬ (n < 999 ∨ n = 9999) := fun h => hx ⟨k, h⟩
        omega

/-! ### Single dates of Level 2 -/

theorem fail_single {s : Str} (h1 : L1.isLevel1 s = false) (hsy : L2.isSubYearGrouping s = false)
    (h : GroupForm s ∨ EndpointForm false [] s ∨ DigitForm (c! "X") s) {e : Err} (hp : parseString s = .err e) : Fails s e := by
  have na := not_acc_of_err hp
  have k1 : ¬ SeasonForm s := by
    intro k
    rw [(C61_level1_partial s).2 (.inr (.inl k))] at h1
    cases h1
  have k2 : ¬ SubYearForm s := by
    intro k
    rw [(C60_subyear s).2 k] at hsy
    cases hsy
  exact .single s e (.inr (.inr h)) k1 k2 na ((single_err (.inr (.inr h)) k1 k2 na).1 hp)

end EDTF
