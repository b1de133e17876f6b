/-
C62 and C63: the error, or the panic, of every string that is not accepted.
-/
import Verif.LemmasFail5
namespace EDTF
open Spec

/-! ### Level 2 and the rest -/

theorem level0_form {s : Str} : L0.isLevel0 s = true ↔ Level0Form s := C61_level0 s
theorem level1_form {s : Str} : L1.isLevel1 s = true ↔ Level1Form s := C61_level1_partial s
theorem level2_start {s : Str} : L2.isLevel2 s = true ↔ Level2Start s := C61_level2_partial s

theorem start_of_form {s : Str} (h : Level2Form s) : Level2Start s := by
  rw [← level2_start]
  refine isLevel2_of ?_
  rcases h with h | h | h | h | h | h | h | h
  · exact .inl ((C60_exponential s).2 h)
  · exact .inr (.inl ((C60_significant s).2 h))
  · exact .inr (.inr (.inl ((C60_subyear s).2 h)))
  · exact .inr (.inr (.inr (.inl ((C50_exact_partial s).2 h))))
  · exact .inr (.inr (.inr (.inr (.inl ((C60_group s).2 h)))))
  · exact .inr (.inr (.inr (.inr (.inr (.inl ((C60_individual s).2 h))))))
  · exact .inr (.inr (.inr (.inr (.inr (.inr (.inl ((C60_digit s).2 h)))))))
  · exact .inr (.inr (.inr (.inr (.inr (.inr (.inr ((C60_interval s).2 h)))))))

theorem more_err {s : Str} (h0 : ¬ Level0Form s) (h1 : ¬ Level1Form s) (h2 : ¬ Level2Form s) (h : Level2Start s) :
    parseString s = .err (.invalid (c! "Invalid or unsupported Level 2 string") s) := by
  rw [parse_level2 (by rw [← Bool.not_eq_true, level0_form]; exact h0) (by rw [← Bool.not_eq_true, level1_form]; exact h1) (level2_start.2 h)]
  unfold Level2Form at h2
  simp only [not_or] at h2
  obtain ⟨a1, a2, a3, a4, a5, a6, a7, a8⟩ := h2
  unfold L2.parseString
  rw [if_neg (by rw [C60_exponential]; exact a1), if_neg (by rw [C60_significant]; exact a2), if_neg (by rw [C60_subyear]; exact a3),
    if_neg (by rw [C50_exact_partial]; exact a4), if_neg (by rw [C60_group]; exact a5), if_neg (by rw [C60_individual]; exact a6),
    if_neg (by rw [C60_digit]; exact a7), if_neg (by rw [C60_interval]; exact a8)]
  rfl

theorem none_eval {s : Str} (h0 : ¬ Level0Form s) (h1 : ¬ Level1Form s) (h2 : ¬ Level2Start s) :
    parseString s = if s = OPEN then .ok (mkEDTF openDateSpan s (-1) (c! "Open"))
      else if s = UNKNOWN then .ok (mkEDTF unknownDateSpan s (-1) (c! "Unknown"))
      else .err (Unrecognized (c! "Invalid or unsupported EDTF string") s) := by
  unfold parseString
  rw [if_neg (by rw [level0_form]; exact h0), if_neg (by rw [level1_form]; exact h1), if_neg (by rw [level2_start]; exact h2)]

theorem unrecognized_err {s : Str} (h0 : ¬ Level0Form s) (h1 : ¬ Level1Form s) (h2 : ¬ Level2Start s) (h : s ≠ [] ∧ s ≠ c! "..") :
    parseString s = .err (.unrecognized (c! "Invalid or unsupported EDTF string") s) := by
  rw [none_eval h0 h1 h2, if_neg (show ¬ s = OPEN from h.2), if_neg (show ¬ s = UNKNOWN from h.1)]
  rfl

theorem fail_level2 {s : Str} (h0 : L0.isLevel0 s = false) (h1 : L1.isLevel1 s = false) (h : Level2Form s) {e : Err} (hp : parseString s = .err e) : Fails s e := by
  have three : ((∃ d, parseString s = .ok d) ∨ (∃ e, parseString s = .err e ∧ Fails s e) ∨ (parseString s = .panic ∧ Panics s)) → Fails s e := by
    rintro (⟨d, h⟩ | ⟨e', h, hf⟩ | ⟨h, -⟩)
    · rw [hp] at h; cases h
    · rw [hp] at h; injection h with h; rw [h]; exact hf
    · rw [hp] at h; cases h
  by_cases hsy : SubYearForm s
  · exact fail_subYear h0 h1 hsy hp
  have hsy' : L2.isSubYearGrouping s = false := by rw [← Bool.not_eq_true, C60_subyear]; exact hsy
  rcases h with h | h | h | h | h | h | h | h
  · exact three (fail_exponential h)
  · exact three (fail_significant h)
  · exact absurd h hsy
  · exact fail_set h hp
  · exact fail_single h1 hsy' (.inl h) hp
  · exact fail_single h1 hsy' (.inr (.inl h)) hp
  · exact fail_single h1 hsy' (.inr (.inr h)) hp
  · exact fail_two (.inr h) hp

theorem fails_of_err {s : Str} {e : Err} (hp : parseString s = .err e) : Fails s e := by
  by_cases h0 : L0.isLevel0 s = true
  · exact fail_level0 h0 hp
  by_cases h1 : L1.isLevel1 s = true
  · exact fail_level1 (Bool.not_eq_true _ ▸ h0) h1 hp
  by_cases h2 : Level2Form s
  · exact fail_level2 (Bool.not_eq_true _ ▸ h0) (Bool.not_eq_true _ ▸ h1) h2 hp
  rw [level0_form] at h0
  rw [level1_form] at h1
  by_cases h3 : Level2Start s
  · rw [more_err h0 h1 h2 h3] at hp
    injection hp with hp
    subst hp
    exact .more s h0 h1 h2 h3
  · rw [none_eval h0 h1 h3] at hp
    split at hp
    · cases hp
    · rename_i n1
      split at hp
      · cases hp
      · rename_i n2
        injection hp with hp
        subst hp
        exact .unrecognized s h0 h1 h3 ⟨n2, n1⟩

theorem err_of_fails {s : Str} {e : Err} (h : Fails s e) : parseString s = .err e := by
  cases h with
  | single s e h h1 h2 hn hd => exact (single_err h h1 h2 hn).2 hd
  | time s h hn => exact time_err h hn
  | left t u e h ht hd => exact (two_form_err h ht).2 (.inl hd)
  | right t u e h ht h1 hd =>
    have two : ∀ h : PairForm (t ++ '/' :: u) ∨ IntervalForm (c! "X") (t ++ '/' :: u), parseString (t ++ '/' :: u) = .err e := by
      intro h
      obtain ⟨a, b, ha, hb, rfl, rfl⟩ := form_endpoints h ht
      have na := endpoint_ne ha
      refine (two_form_err h ht).2 (.inr ⟨?_, hd⟩)
      rcases h1 with h1 | h1 | h1
      · exact absurd h1 na.1
      · exact absurd h1 na.2
      · exact h1
    rcases h with h | h | h
    · exact two (.inl h)
    · exact two (.inr h)
    · exact (start_err h ht).2.2 hd
  | letterLong neg us hu hl => exact letter_long hu hl
  | letterShort neg us hu hl => exact letter_short hu hl
  | month n m h1 h2 h3 h4 t ht =>
    obtain ⟨k0, k1⟩ := month_levels (by omega : n < 10000) h3 h4 ht
    exact month_err h1 h2 h3 h4 k0 k1
  | season n h1 h2 z => exact season_err h1 h2 z
  | winter => exact winter_err
  | lastWinter => exact lastWinter_err
  | lastWinterName w t1 t2 hw h1 h2 => exact C18_text_last hw h1 h2
  | minus n h => exact minus_err h
  | small s h h1 hn => exact small_err h h1 hn
  | exponential yc ec hy he neg ms es hm hes e h => exact exp_year_fails hy he hm hes h
  | exponentialShort yc ec hy he neg ms es hm hes v hv h t ht =>
    rw [numeral_iff.1 ht]
    exact exp_year_short hy he hm hes hv h
  | sigLetter neg us hu hl ds hd => exact sig_letter_long hu hl hd
  | sigExponential yc ec hy he neg ms es hm hes e h ds hd => exact sig_exp_fails hy he hm hes h hd
  | sigLarge t v h u hu ds hd hk =>
    obtain ⟨hv, e⟩ := sigReads_eq h hd
    rw [numeral_iff.1 hu, itoa_length hv] at hk
    rw [e]
    exact sigTail_large hk
  | sigShort t v h u hu ds hd hk hs =>
    obtain ⟨hv, e⟩ := sigReads_eq h hd
    rw [numeral_iff.1 hu] at hk ⊢
    rw [itoa_length hv] at hk
    rw [e]
    exact sigTail_short hv hk hs
  | grouping n hn g hg h t ht => exact grouping_err hn g hg h ht
  | setDots s h hn => exact setDots_err h hn
  | setLeast o c ho hc cs hs a ha hl h0 e hd => exact least_err ho hc hs ha hl h0 hd
  | setGreatest o c ho hc cs hs a b ha hb hl h0 e hd => exact greatest_err ho hc hs ha hb hl h0 hd
  | more s h0 h1 h2 h => exact more_err h0 h1 h2 h
  | unrecognized s h0 h1 h2 h => exact unrecognized_err h0 h1 h2 h

theorem panics_of_panic {s : Str} (hp : parseString s = .panic) : Panics s := by
  have three : ((∃ d, parseString s = .ok d) ∨ (∃ e, parseString s = .err e ∧ Fails s e) ∨ (parseString s = .panic ∧ Panics s)) → Panics s := by
    rintro (⟨d, h⟩ | ⟨e', h, -⟩ | ⟨-, h⟩)
    · rw [hp] at h; cases h
    · rw [hp] at h; cases h
    · exact h
  obtain ⟨-, -, h | h, -⟩ := parse_panic hp
  · exact three (fail_exponential ((C60_exponential s).1 h))
  · exact three (fail_significant ((C60_significant s).1 h))

theorem panic_of_panics {s : Str} (h : Panics s) : parseString s = .panic := by
  cases h with
  | infinite yc ec hy he neg ms es hm hes h1 h2 => exact exp_year_panic hy he hm hes h1 h2
  | infiniteSig yc ec hy he neg ms es hm hes h1 h2 ds hd => exact sig_exp_panic hy he hm hes h1 h2 hd
  | digits t v h u hu ds hd h1 h2 =>
    obtain ⟨hv, e⟩ := sigReads_eq h hd
    rw [numeral_iff.1 hu, itoa_length hv] at h1 h2
    rw [e]
    exact (sigTail_panic hv).2 ⟨h1, h2⟩

/-! ### C62 -/

/-- C62: the error of every string, with its text. -/
theorem C62_error (s : Str) (e : Err) : parseString s = .err e ↔ Fails s e := ⟨fails_of_err, err_of_fails⟩

/-- C62: a string has at most one error. -/
theorem C62_unique {s : Str} {e e' : Err} (h : Fails s e) (h' : Fails s e') : e = e' := by
  have := (C62_error s e).2 h
  rw [(C62_error s e').2 h'] at this
  injection this with this
  exact this.symm

/-- Two dates, of which the first has a sign and an unspecified digit. -/
example : Fails (c! "-199X/2004") .plain :=
  .left (c! "-199X") (c! "2004") .plain
    (.inr ⟨c! "-199X", c! "2004",
      ⟨[], true, c! "199X", [], .inl rfl, fun _ => rfl, by unfold Places; decide, rfl, .inl rfl⟩,
      ⟨[], false, c! "2004", [], .inl rfl, nofun, by unfold Places; decide, rfl, .inl rfl⟩, rfl⟩)
    (by decide)
    (.negative ⟨⟨true, c! "199X", .none⟩, .none, .none, .none⟩ ⟨⟨by unfold XDate.ok XDigit; decide, rfl, rfl, rfl, by decide⟩, trivial⟩ rfl '1' '9' '9' rfl)
/-- Too many digits, too few, a season, a grouping and the last winter. -/
example : Fails (c! "Y17000") (.unsupported (c! "Letter-prefixed calendar year") (c! "Y17000")) :=
  .letterLong false [1, 7, 0, 0, 0] (by unfold Digits; decide) (by decide)
example : Fails (c! "Y-17") (.invalid (c! "date") (c! "-17")) := .letterShort true [1, 7] (by unfold Digits; decide) (by decide)
example : Fails (c! "-0044-22") (.invalid (c! "date") (c! "-044-06-01")) := .season 44 (by decide) (by decide) .summer
example : Fails (c! "9999-30") (.invalid (c! "date") (c! "10000-02")) :=
  .grouping 9999 (by decide) (.south .summer) rfl (by decide) (c! "10000") ⟨[1, 0, 0, 0, 0], by unfold Digits; decide, nofun, rfl, rfl⟩
/-- Significant digits of a year before 1000, and too many of them. -/
example : Fails (c! "0195S2") (.invalid (c! "date") (c! "100")) :=
  .sigShort (c! "0195") 195 (.date false 195 (by decide)) (c! "195") ⟨[1, 9, 5], by unfold Digits; decide, nofun, rfl, rfl⟩ [2]
    (by unfold Digits; decide) (by decide) (by unfold SigFits; decide)
example : Fails (c! "1950S10000") (.invalid (c! "Significant digits") (c! "1950S10000")) :=
  .sigLarge (c! "1950") 1950 (.date false 1950 (by decide)) (c! "1950") ⟨[1, 9, 5, 0], by unfold Digits; decide, nofun, rfl, rfl⟩ [1, 0, 0, 0, 0]
    (by unfold Digits; decide) (by decide)
/-- An exponential year beyond the range, and no form at all. -/
example : Fails (c! "Y17E7") (.unsupported (c! "exponential notation") (c! "17E7")) := (C62_error _ _).1 rfl
example : Fails (c! "hello") (.unrecognized (c! "Invalid or unsupported EDTF string") (c! "hello")) := (C62_error _ _).1 rfl
/-- Something after a form of Level 2. -/
example : Fails (c! "1985-33 more") (.invalid (c! "Invalid or unsupported Level 2 string") (c! "1985-33 more")) := (C62_error _ _).1 rfl

/-! ### C63 -/

/-- C63: exactly these strings end the program. -/
theorem C63_panic (s : Str) : parseString s = .panic ↔ Panics s := ⟨panics_of_panic, panic_of_panics⟩

/-- More digits than the year has. -/
example : Panics (c! "1950S5") :=
  .digits (c! "1950") 1950 (.date false 1950 (by decide)) (c! "1950") ⟨[1, 9, 5, 0], by unfold Digits; decide, nofun, rfl, rfl⟩ [5]
    (by unfold Digits; decide) (by decide) (by decide)
/-- An infinite year. -/
example : Panics (c! "Y1E2000000000") := (C63_panic _).1 C15_negation.2

/-- C63: every string is accepted, or has an error, or ends the program, and only one of these. -/
theorem C63_three (s : Str) :
    (Accepted s ∧ (∀ e, ¬ Fails s e) ∧ ¬ Panics s) ∨ ((∃ e, Fails s e) ∧ ¬ Accepted s ∧ ¬ Panics s) ∨ (Panics s ∧ ¬ Accepted s ∧ ∀ e, ¬ Fails s e) := by
  rw [← C54_language, ← C63_panic]
  simp only [← C62_error]
  generalize parseString s = r
  cases r with
  | ok d =>
    refine .inl ⟨⟨d, rfl⟩, ?_, ?_⟩
    · intro e h; cases h
    · intro h; cases h
  | err e =>
    refine .inr (.inl ⟨⟨e, rfl⟩, ?_, ?_⟩)
    · rintro ⟨d, h⟩; cases h
    · intro h; cases h
  | panic =>
    refine .inr (.inr ⟨rfl, ?_, ?_⟩)
    · rintro ⟨d, h⟩; cases h
    · intro e h; cases h

end EDTF
