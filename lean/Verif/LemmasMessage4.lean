/-
The texts of the errors of seasons, intervals and sets.
-/
import Verif.LemmasMessage3
namespace EDTF
open Spec Told

/-! ### Seasons -/

theorem winter_days : daysInMonthM 10000 2 = .says winterText := by decide +kernel

theorem seasonBody_says {y1 y2 : Int} {m1 m2 : Nat} (h1 : y1.natAbs < 10000) (a1 : 1 ≤ m1) (b1 : m1 ≤ 12) (a2 : 1 ≤ m2) (b2 : m2 ≤ 12)
    (hy : y2 = y1 ∨ (y2 = y1 + 1 ∧ m2 = 2)) {s : Str} {l : Int} {f t : Str}
    (h : (do let dm ← daysInMonthM y2 m2
             let sp ← dateSpanFromEDTFM (L1.seasonString ⟨y1, m1, y2, m2⟩ dm)
             Told.ok (mkEDTF sp s l f)) = .says t) : t = winterText ∧ y1 = 9999 ∧ y2 = 10000 := by
  by_cases h2 : y2.natAbs < 10000
  · exfalso
    have hd : daysInMonthM y2 m2 = .ok (monthLen y2 m2 : Int) := by
      rw [← forget_ok, daysInMonthM_forget]
      exact daysInMonth_ok h2 a2 b2
    rw [hd, ok_bindM] at h
    have he : dateSpanFromEDTF (L1.seasonString ⟨y1, m1, y2, m2⟩ (monthLen y2 m2)) = .err .plain := by
      rcases bind_says.1 h with h | ⟨a, -, h⟩
      · have := forget_says h
        rwa [dateSpanFromEDTFM_forget] at this
      · cases h
    have hl := monthLen_pos y2 m2
    by_cases p1 : PadYear y1
    · by_cases p2 : PadYear y2
      · rw [span_months p1 p2 a1 b1 a2 b2] at he
        cases he
      · obtain ⟨u, hu⟩ := span_short (m1 := m1) (m2 := m2) (dm := (monthLen y2 m2 : Int)) (y1 := y1) (y2 := y2) (Or.inr ⟨p1, by unfold PadYear at p2; omega⟩) a1 b1 a2 b2 (by omega) h2
        rw [hu] at he
        cases he
    · obtain ⟨u, hu⟩ := span_short (y2 := y2) (m1 := m1) (m2 := m2) (dm := (monthLen y2 m2 : Int)) (y1 := y1) (Or.inl (by unfold PadYear at p1; omega)) a1 b1 a2 b2 (by omega) h2
      rw [hu] at he
      cases he
  · have e1 : y1 = 9999 := by omega
    have e2 : y2 = 10000 := by omega
    have e3 : m2 = 2 := by omega
    subst e1 e2 e3
    rw [show daysInMonthM 10000 ((2 : Nat) : Int) = .says winterText from winter_days] at h
    injection h with h
    injection h with _ h
    exact ⟨h.symm, rfl, rfl⟩

theorem date24 {x : Date0} (hx : x.shaped) {u rest : Str} (hu : ∀ v, u ≠ '-' :: v) : x.text ++ u ≠ c! "9999-24" ++ rest := by
  intro e
  obtain ⟨hy, hs⟩ := shaped_iff.1 hx
  obtain ⟨neg, n, tl⟩ := x
  have mm : ∀ {m : Nat}, m ≤ 12 → dig (m / 10 % 10) ≠ '2' := fun hm h => by
    have := dig_inj (a := _) (b := 2) (by omega) (by decide) h
    omega
  cases neg with
  | true =>
    rw [date0_text] at e
    injection e with e
    exact absurd e (by decide)
  | false =>
    cases tl with
    | none =>
      rw [date0_year] at e
      injection e with _ e
      injection e with _ e
      injection e with _ e
      injection e with _ e
      exact hu _ e
    | month m =>
      rw [month_text] at e
      injection e with _ e
      injection e with _ e
      injection e with _ e
      injection e with _ e
      injection e with _ e
      injection e with e _
      exact mm hs.2 e
    | day m d =>
      rw [day_text] at e
      injection e with _ e
      injection e with _ e
      injection e with _ e
      injection e with _ e
      injection e with _ e
      injection e with e _
      exact mm hs.2.1 e

theorem level24 {rest : Str} (h : L1.isLevel1 (c! "9999-24" ++ rest) = true) : rest = [] ∨ ',' ∈ c! "9999-24" ++ rest := by
  rcases (C61_level1_partial _).1 h with k | k | k | k | k | k | k | k
  · obtain ⟨y, hy, neg, ds, -, e⟩ := k
    injection e with e _
    rw [← e] at hy
    exact absurd hy (by decide)
  · obtain ⟨neg, n, m, -, -, e⟩ := k
    cases neg with
    | true => injection e with e _; exact absurd e (by decide)
    | false =>
      have := congrArg List.length e
      simp [signed, pad4, pad2] at this
      exact .inl this
  · obtain ⟨w, t1, t2, z, n, -, -, -, -, e⟩ := k
    rw [e]
    exact .inr (by simp)
  · obtain ⟨d, ⟨x, hx, rfl⟩, q, hq, e⟩ := k
    refine absurd e.symm (date24 hx fun v k => ?_)
    injection k with k _
    rw [k] at hq
    exact absurd hq (by decide)
  · obtain ⟨y, u, ⟨hl, -⟩, e, k⟩ := k
    exfalso
    match y, hl with
    | [a, b, c, d], _ =>
      injection e with _ e
      injection e with _ e
      injection e with _ e
      injection e with _ e
      rcases k with rfl | ⟨m, v, ⟨a, b, rfl, hm⟩, rfl, -⟩
      · cases e
      · injection e with _ e
        injection e with e1 e
        injection e with e2 _
        subst e1 e2
        revert hm
        decide
  · obtain ⟨l, d, hl, -, e⟩ := k
    rcases hl with rfl | rfl
    · injection e with e _; exact absurd e (by decide)
    · injection e with e _; exact absurd e (by decide)
  · obtain ⟨d, r, ⟨x, hx, rfl⟩, -, e⟩ := k
    refine absurd e.symm (date24 hx fun v k => ?_)
    injection k with k _
    exact absurd k (by decide)
  · obtain ⟨neg, n, -, e⟩ := k
    injection e with e _
    exact absurd e (by decide)

theorem season_winter {s t : Str} (h : L1.parseSeasonM s = .says t) : t = winterText ∧ ((∃ r, s = c! "9999-24" ++ r) ∨ ',' ∈ s) := by
  unfold L1.parseSeasonM at h
  cases hc : Rx.Season.submatch s with
  | none => rw [hc] at h; cases h
  | some c =>
    rw [hc] at h
    simp only at h
    rcases season_caps hc with ⟨k1, k2, r, e⟩ | ⟨-, k1, k3, k4, pre, s1, cc, s2, -, hcc, -, e⟩
    · obtain ⟨neg, n, hn, e1⟩ := lang_year4'.1 k1
      obtain ⟨m, hm2, hm, e2⟩ := lang_seasonCode.1 k2
      have key : L1.seasonSpanM s c = .ok (numSpan (if neg then -(n : Int) else n) m) := by
        rw [← forget_ok, L1.seasonSpanM_forget]
        unfold L1.seasonSpan
        rw [if_neg (by rw [e1]; exact yearStr_ne_nil _ _), e1, e2]
        unfold L1.seasonOfNum numSpan
        rw [atoi_yearStr neg hn, atoi_pad2 hm2]
        simp only [Res.ofOption_some, Res.ok_bind]
        by_cases h1 : m = 21
        · subst h1; rfl
        · by_cases h2 : m = 22
          · subst h2; rfl
          · by_cases h3 : m = 23
            · subst h3; rfl
            · by_cases h4 : m = 24
              · subst h4; rfl
              · rw [if_neg (by omega), if_neg (by omega), if_neg (by omega), if_neg (by omega), if_neg h1, if_neg h2, if_neg h3, if_neg h4]
      rw [key, ok_bindM] at h
      obtain ⟨m1, m2, a1, b1, a2, b2, ee⟩ := numSpan_bounds (y := if neg then -(n : Int) else n) hm
      have hw : m = 24 → m2 = 2 := by
        rintro rfl
        have : (numSpan (if neg then -(n : Int) else n) 24).end_mm = 2 := rfl
        rw [ee] at this
        exact Int.ofNat.inj this
      rw [ee] at h
      obtain ⟨h, g1, g2⟩ := seasonBody_says (by split <;> omega) a1 b1 a2 b2 (by
        by_cases h24 : m = 24
        · rw [if_pos h24]; exact .inr ⟨rfl, hw h24⟩
        · rw [if_neg h24]; exact .inl rfl) h
      refine ⟨h, ?_⟩
      have n24 : m = 24 := by
        by_cases h24 : m = 24
        · exact h24
        · rw [if_neg h24, g1] at g2; exact absurd (show (9999 : Int) = 10000 from g2) (by decide)
      have nn : neg = false ∧ n = 9999 := by
        cases neg
        · simp only [Bool.false_eq_true, if_false] at g1; exact ⟨rfl, by omega⟩
        · simp only [if_true] at g1; omega
      obtain ⟨rfl, rfl⟩ := nn
      subst n24
      rw [e1, e2] at e
      exact .inl ⟨r, e⟩
    · obtain ⟨z, hz⟩ := seasonWord_upper k3
      obtain ⟨n, hn, e4⟩ := lang_four.1 k4
      have key : L1.seasonSpanM s c = .ok (textSpan n z) := by
        rw [← forget_ok, L1.seasonSpanM_forget]
        unfold L1.seasonSpan
        rw [if_pos k1, e4]
        unfold L1.seasonOfText
        rw [atoi_pad4 hn, hz]
        cases z <;> rfl
      rw [key, ok_bindM] at h
      obtain ⟨a1, b1, a2, b2⟩ := season_months z
      obtain ⟨h, -⟩ := seasonBody_says (y1 := (n : Int)) (by omega) a1 b1 a2 b2 (by cases z <;> first | exact .inl rfl | exact .inr ⟨rfl, rfl⟩) h
      refine ⟨h, .inr ?_⟩
      rw [e, fold_comma hcc]
      simp

theorem season_says {s t : Str} (h1 : L1.isLevel1 s = true) (h : L1.parseSeasonM s = .says t) : t = winterText ∧ (s = c! "9999-24" ∨ ',' ∈ s) := by
  obtain ⟨h2, ⟨r, rfl⟩ | k⟩ := season_winter h
  · refine ⟨h2, ?_⟩
    rcases level24 h1 with rfl | k
    · exact .inl rfl
    · exact .inr k
  · exact ⟨h2, .inr k⟩

/-! ### Dates and intervals -/

/-- A plain error for a string without the signs of the other forms. -/
theorem says_span {s t : Str} (h : parseStringM s = .says t) (hT : 'T' ∉ s) (hY : 'Y' ∉ s) (hy : 'y' ∉ s) (hS : 'S' ∉ s) (hc : ',' ∉ s)
    (hb : '[' ∉ s) (hb' : '{' ∉ s) (hsub : ¬ SubYearForm s) (hw : s ≠ c! "9999-24") : dateSpanFromEDTFM s = .says t := by
  rcases says_cases h with k | ⟨-, k⟩ | ⟨k, -, k'⟩ | k | k | k | k | k
  · obtain ⟨d, _, _, _, z, -, -, -, -, -, rfl⟩ := (C58_time s).1 k
    exact absurd (by simp) hT
  · rw [not_letter hY] at k; cases k
  · rcases (season_says k k').2 with e | e
    · exact absurd e hw
    · exact absurd e hc
  · obtain ⟨yc, hyc, _, _, _, _, _, _, _, rfl⟩ := (C60_exponential s).1 k
    rcases mem_Yy.1 hyc with rfl | rfl
    · exact absurd (by simp) hY
    · exact absurd (by simp) hy
  · rw [not_sig hS] at k; cases k
  · exact absurd ((C60_subyear s).1 k) hsub
  · rw [not_set (fun c hc => by
      rcases List.mem_cons.1 hc with rfl | hc
      · exact hb
      · rw [List.mem_singleton] at hc
        subst hc
        exact hb')] at k
    cases k
  · exact k

theorem dateText_like {s t : Str} (h : DateText s t) : ∃ e : Endpoint, e.like ∧ s = e.text := by
  cases h with
  | negative e h => exact ⟨e, h, rfl⟩
  | other e h => exact ⟨e, h, rfl⟩

theorem dateText_not_mem {s t : Str} (h : DateText s t) {c : Char} (h1 : isDX c = false) (h2 : c ≠ '-') (h3 : isQ c = false) : c ∉ s := by
  obtain ⟨e, he, rfl⟩ := dateText_like h
  exact e_not_mem he.1 h1 h2 h3

theorem dateText_unique {s t u : Str} (h : DateText s t) (k : DateText s u) : t = u := by
  have h := date_says_iff.2 h
  have k := date_says_iff.2 k
  rw [h] at k
  injection k with k
  injection k with _ k

theorem dateText_fails {s t : Str} (h : DateText s t) : DateFails s .plain := by
  rw [← date_err_iff, ← dateSpanFromYMDM_forget, date_says_iff.2 h]
  rfl

theorem dateText_of_fails {s : Str} (h : DateFails s .plain) : ∃ t, DateText s t := by
  rw [← date_err_iff, ← dateSpanFromYMDM_forget] at h
  obtain ⟨t, ht⟩ := plain_says h
  exact ⟨t, date_says_iff.1 ht⟩

theorem reads_not_fails {s : Str} (h : Reads s) {e : Err} (k : DateFails s e) : False := by
  obtain ⟨sp, h⟩ := reads_iff.2 h
  rw [date_err_iff.2 k] at h
  cases h

theorem single_says {s t u : Str} (h2 : ¬ SubYearForm s) (h1 : ¬ SeasonForm s) (hd : DateText s u) (h : parseStringM s = .says t) : DateText s t := by
  have nm : ∀ {c : Char}, isDX c = false → c ≠ '-' → isQ c = false → c ∉ s := dateText_not_mem hd
  have hs := says_span h (nm (by decide) (by decide) (by decide)) (nm (by decide) (by decide) (by decide)) (nm (by decide) (by decide) (by decide))
    (nm (by decide) (by decide) (by decide)) (nm (by decide) (by decide) (by decide)) (nm (by decide) (by decide) (by decide))
    (nm (by decide) (by decide) (by decide)) h2 (by
      rintro rfl
      exact h1 ⟨false, 9999, 24, by decide, by decide, rfl⟩)
  rw [spanM_noSlash (nm (by decide) (by decide) (by decide))] at hs
  exact date_says_iff.1 hs

theorem subYear_noSlash {s : Str} (h : '/' ∈ s) : ¬ SubYearForm s := by
  rintro ⟨n, m, -, -, rfl⟩
  rcases List.mem_append.1 h with h | h
  · exact absurd (List.all_eq_true.1 (pad4_all _) _ h) (by decide)
  · rcases List.mem_cons.1 h with h | h
    · exact absurd h (by decide)
    · exact absurd (List.all_eq_true.1 (pad2_all _) _ h) (by decide)

theorem twoM_says {a b t : Str} (ha : '/' ∉ a) (hb : '/' ∉ b) (h : dateSpanFromEDTFM (a ++ '/' :: b) = .says t) :
    DateText a t ∨ ((a = [] ∨ a = c! ".." ∨ Reads a) ∧ DateText b t) := by
  rw [spanM_slash ha hb] at h
  rcases bind_says.1 h with h | ⟨l, hl, h⟩
  · exact .inl (half_says h)
  · rw [← forget_ok, halfSpanM_forget] at hl
    rcases bind_says.1 h with h | ⟨r, -, h⟩
    · exact .inr ⟨half_ok.1 ⟨l, hl⟩, half_says h⟩
    · exact absurd h join_says

theorem interval_says {a b t : Str}
    (h : PairForm (a ++ '/' :: b) ∨ IntervalForm (c! "X") (a ++ '/' :: b) ∨ StartForm (a ++ '/' :: b)) (ha : '/' ∉ a)
    (hs : parseStringM (a ++ '/' :: b) = .says t) : DateText a t ∨ ((a = [] ∨ a = c! ".." ∨ Reads a) ∧ DateText b t) := by
  have hab : (∀ c : Char, isDX c = false → c ≠ '-' → isQ c = false → c ≠ '.' → c ∉ a) ∧ (∀ c : Char, isDX c = false → c ≠ '-' → isQ c = false → c ∉ b) := by
    have two : PairForm (a ++ '/' :: b) ∨ IntervalForm (c! "X") (a ++ '/' :: b) → _ := fun h => form_endpoints h ha
    rcases h with h | h | h
    · obtain ⟨x, y, hx, hy, rfl, rfl⟩ := two (.inl h)
      exact ⟨fun c h1 h2 h3 _ => e_not_mem hx.1 h1 h2 h3, fun c h1 h2 h3 => e_not_mem hy.1 h1 h2 h3⟩
    · obtain ⟨x, y, hx, hy, rfl, rfl⟩ := two (.inr h)
      exact ⟨fun c h1 h2 h3 _ => e_not_mem hx.1 h1 h2 h3, fun c h1 h2 h3 => e_not_mem hy.1 h1 h2 h3⟩
    · obtain ⟨l, d, hl, hd, ee⟩ := h
      have hl' : '/' ∉ l := by rcases hl with rfl | rfl <;> decide
      obtain ⟨rfl, rfl⟩ := slash_split ha hl' ee
      obtain ⟨y, hy, rfl⟩ := shape_endpoint hd
      refine ⟨fun c _ _ _ h4 => ?_, fun c h1 h2 h3 => e_not_mem hy.1 h1 h2 h3⟩
      rcases hl with rfl | rfl
      · simp
      · simpa using h4
  have hb : '/' ∉ b := hab.2 '/' (by decide) (by decide) (by decide)
  have nm : ∀ {c : Char}, isDX c = false → c ≠ '-' → isQ c = false → c ≠ '.' → c ≠ '/' → c ∉ a ++ '/' :: b := by
    intro c h1 h2 h3 h4 h5 hc
    rcases List.mem_append.1 hc with hc | hc
    · exact hab.1 c h1 h2 h3 h4 hc
    · rcases List.mem_cons.1 hc with hc | hc
      · exact h5 hc
      · exact hab.2 c h1 h2 h3 hc
  have ms : '/' ∈ a ++ '/' :: b := by simp
  have := says_span hs (nm (by decide) (by decide) (by decide) (by decide) (by decide)) (nm (by decide) (by decide) (by decide) (by decide) (by decide))
    (nm (by decide) (by decide) (by decide) (by decide) (by decide)) (nm (by decide) (by decide) (by decide) (by decide) (by decide))
    (nm (by decide) (by decide) (by decide) (by decide) (by decide)) (nm (by decide) (by decide) (by decide) (by decide) (by decide))
    (nm (by decide) (by decide) (by decide) (by decide) (by decide)) (subYear_noSlash ms) (fun e => by rw [e] at ms; exact absurd ms (by decide))
  exact twoM_says ha hb this

/-! ### Sets -/

theorem setSpanM_text {l : List Str} {so eo : Bool} {p : Prec} {t : Str} (h : L2.setSpanM l so eo p = .says t) :
    dateSpanFromEDTFM (L2.setString l (l.headD []) (l.getLastD []) so eo).1 = .says t := by
  have hf := forget_says h
  rw [L2.setSpanM_forget, setSpan_err_text, ← dateSpanFromEDTFM_forget] at hf
  unfold L2.setSpanM at h
  rcases bind_says.1 h with h | ⟨sp, hs, -⟩
  · exact h
  · have hs : dateSpanFromEDTFM (L2.setString l (l.headD []) (l.getLastD []) so eo).1 = .ok sp := hs
    rw [hs] at hf
    cases hf

theorem setSpanM_says {l : List Str} {so eo : Bool} {p : Prec} (h : ∀ t ∈ l, Bare t) (hl : l ≠ []) {t : Str}
    (hs : L2.setSpanM l so eo p = .says t) :
    DateText (l.headD []) t ∨ ((l.headD [] = [] ∨ Reads (l.headD [])) ∧ DateText (l.getLastD []) t) := by
  have hh : l.headD [] ∈ l := by cases l with | nil => exact absurd rfl hl | cons x xs => simp
  have ht : l.getLastD [] ∈ l := by
    rw [List.getLastD_eq_getLast?, List.getLast?_eq_some_getLast hl]
    exact List.getLast_mem hl
  have h1 := h _ hh
  have h2 := h _ ht
  have n1 : l.headD [] ≠ c! ".." := by
    intro e
    rw [e] at h1
    exact h1.2 (by decide)
  have dots : ∀ {t}, ¬ DateText (c! "..") t := fun h => dateText_not_mem h (c := '.') (by decide) (by decide) (by decide) (by decide)
  have hs := setSpanM_text hs
  have two : dateSpanFromEDTFM (l.headD [] ++ c! "/" ++ l.getLastD []) = .says t →
      DateText (l.headD []) t ∨ ((l.headD [] = [] ∨ Reads (l.headD [])) ∧ DateText (l.getLastD []) t) := by
    intro k
    rw [show l.headD [] ++ c! "/" ++ l.getLastD [] = l.headD [] ++ '/' :: l.getLastD [] by simp] at k
    rcases twoM_says h1.1 h2.1 k with k | ⟨k1, k2⟩
    · exact .inl k
    · exact .inr ⟨k1.imp id fun a => a.resolve_left n1, k2⟩
  unfold L2.setString at hs
  simp only at hs
  split at hs
  · exact two hs
  · simp only at hs
    split at hs
    · rw [show c! "../" ++ l.headD [] = c! ".." ++ '/' :: l.headD [] by rfl] at hs
      rcases twoM_says (by decide) h1.1 hs with k | ⟨-, k⟩
      · exact absurd k dots
      · exact .inl k
    · split at hs
      · rw [show l.headD [] ++ c! "/.." = l.headD [] ++ '/' :: c! ".." by rfl] at hs
        rcases twoM_says h1.1 (by decide) hs with k | ⟨-, k⟩
        · exact .inl k
        · exact absurd k dots
      · split at hs
        · exact two hs
        · rw [spanM_noSlash h1.1] at hs
          exact .inl (date_says_iff.1 hs)

theorem set_dispatchM {s : Str} (h : SetForm s) : parseStringM s = L2.parseSetRepresentationsM s := by
  have hset := (C50_exact_partial s).2 h
  obtain ⟨o, ho, c, hc, l, m, r, -, -, -, e⟩ := h
  have hb : o = '[' ∨ o = '{' := by simpa using ho
  have ho : o ∈ s := by rw [e]; simp
  clear e
  have nc : ∀ r : Re, r.mayHave '[' = false → r.mayHave '{' = false → ¬ Lang r s := by
    intro r h1 h2
    rcases hb with rfl | rfl
    · exact not_lang_of_char h1 ho
    · exact not_lang_of_char h2 ho
  have l0 : L0.isLevel0 s = false := by
    rcases hb with rfl | rfl
    · exact not_level0_char ho (by decide)
    · exact not_level0_char ho (by decide)
  have l1 : L1.isLevel1 s = false := by
    rcases hb with rfl | rfl
    · exact not_level1_char ho (by decide)
    · exact not_level1_char ho (by decide)
  have e1 : L2.isExponentialYear s = false := by
    rw [← Bool.not_eq_true, isExponential_iff]; exact nc _ (by decide) (by decide)
  have e2 : L2.isSignificantDigits s = false := by
    rw [← Bool.not_eq_true, isSig_iff]; exact nc _ (by decide) (by decide)
  have e3 : L2.isSubYearGrouping s = false := by
    rw [← Bool.not_eq_true, isSubYear_iff]; exact nc _ (by decide) (by decide)
  rw [parseM_level2 l0 l1 (isLevel2_of (.inr (.inr (.inr (.inl hset)))))]
  unfold L2.parseStringM
  rw [e1, e2, e3, hset]
  simp only [Bool.false_eq_true, if_false, if_true]

theorem set_says {o c : Char} (ho : o ∈ c! "[{") (hc : c ∈ c! "]}") {cs : List Chunk} (hs : ChunksOk cs) {t : Str}
    (h : parseStringM (o :: (commaJoin (cs.map Chunk.text) ++ [c])) = .says t) :
    ∃ a b, Ends (cs.flatMap Chunk.members) a b ∧ (DateText a t ∨ ((a = [] ∨ Reads a) ∧ DateText b t)) := by
  have hF := chunks_form ho hc hs
  rw [set_dispatchM hF] at h
  obtain ⟨m, hm⟩ := form_caps hF
  obtain ⟨b, b', hb, -, g1, g2, g3⟩ := set_caps hm
  injection g2 with g2 g4
  have em : m 2 = commaJoin (cs.map Chunk.text) := ((List.append_inj' g4 rfl).1).symm
  unfold L2.parseSetRepresentationsM at h
  rw [hm] at h
  simp only at h
  have hk : ∃ p, L2.setKind (o :: (commaJoin (cs.map Chunk.text) ++ [c])) (m 1) = .ok p := by
    rw [g1]
    rcases hb with rfl | rfl <;> exact ⟨_, rfl⟩
  obtain ⟨p, hp⟩ := hk
  rw [hp, lift_ok, ok_bindM] at h
  have hsplit : splitChar ',' (m 2) = cs.map Chunk.text := by
    rw [em]
    refine splitChar_commaJoin ?_ ?_
    · obtain ⟨-, ⟨c, hc, -⟩, -⟩ := hs
      intro h
      rw [List.map_eq_nil_iff] at h
      rw [h] at hc
      cases hc
    · intro x hx
      obtain ⟨p, -, rfl⟩ := List.mem_map.1 hx
      exact chunk_comma p
  obtain ⟨so, eo, hcol⟩ := collect_chunks (o :: (commaJoin (cs.map Chunk.text) ++ [c])) cs hs.1 ⟨[], false, false⟩
  rw [hsplit, hcol, lift_ok, ok_bindM] at h
  simp only [List.nil_append] at h
  split at h
  · cases h
  · next k =>
    have h : L2.setSpanM (sortStrings (cs.flatMap Chunk.members)) so eo p = .says t := by
      rcases bind_says.1 h with h | ⟨_, -, h⟩
      · exact h
      · cases h
    have hl : sortStrings (cs.flatMap Chunk.members) ≠ [] := by
      intro h0
      exact k (by rw [h0]; rfl)
    obtain ⟨a1, a2⟩ := sorted_head (sorted_sortStrings (cs.flatMap Chunk.members)) hl
    obtain ⟨b1, b2⟩ := sorted_last (sorted_sortStrings (cs.flatMap Chunk.members)) hl
    refine ⟨_, _, ⟨mem_sortStrings.1 a1, mem_sortStrings.1 b1,
      fun t ht => ⟨textLe_iff.2 (a2 t (mem_sortStrings.2 ht)), textLe_iff.2 (b2 t (mem_sortStrings.2 ht))⟩⟩, ?_⟩
    exact setSpanM_says (fun t ht => by
      obtain ⟨c, -, hc⟩ := List.mem_flatMap.1 (mem_sortStrings.1 ht)
      exact chunk_bare c t hc) hl h

end EDTF
