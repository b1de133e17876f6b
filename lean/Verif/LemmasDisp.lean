/- Which parser a string reaches. -/
import Verif.LemmasCap
namespace EDTF
open Spec

/-! ### Group numbers do not matter for matching -/

/-- The pattern without its groups. -/
def Re.erase : Re → Re
  | .grp _ a => a.erase
  | .cat a b => .cat a.erase b.erase
  | .alt a b => .alt a.erase b.erase
  | .opt a => .opt a.erase
  | .star a => .star a.erase
  | .plus a => .plus a.erase
  | r => r

theorem star_iff {P Q : Str → Prop} (h : ∀ w, P w ↔ Q w) (w : Str) : Star P w ↔ Star Q w := by
  have : P = Q := funext fun w => propext (h w)
  rw [this]

theorem lang_erase (r : Re) (w : Str) : Lang r w ↔ Lang r.erase w := by
  induction r generalizing w with
  | grp i a ih => exact ih w
  | cat a b iha ihb => simp only [Re.erase, lang_cat, iha, ihb]
  | alt a b iha ihb => simp only [Re.erase, lang_alt, iha, ihb]
  | opt a ih => simp only [Re.erase, lang_opt, ih]
  | star a ih => exact star_iff ih w
  | plus a ih =>
    have := star_iff ih
    simp only [Re.erase, Lang, this, ih]
  | _ => exact Iff.rfl

theorem lang_regroup {r r' : Re} (h : r.erase = r'.erase) (w : Str) : Lang r w ↔ Lang r' w := by
  rw [lang_erase, h, ← lang_erase]

/-! ### Folding only adds words -/

/-- All ranges end below 128. -/
def asciiR (p : Char × Char) : Bool := Nat.ble p.2.toNat 127

theorem clsHas_mono {rs : List (Char × Char)} (hr : rs.all asciiR = true) {f : Bool} {c : Char} (h : clsHas f rs c = true) :
    clsHas true rs c = true := by
  cases f with
  | true => exact h
  | false =>
    unfold clsHas at h ⊢
    rw [if_neg (by decide)] at h
    rw [if_pos rfl]
    have hc : c.toNat ≤ 127 := by
      rw [List.any_eq_true] at h
      obtain ⟨p, hp, h⟩ := h
      have := List.all_eq_true.1 hr p hp
      simp only [asciiR, inR, Bool.and_eq_true, Nat.ble_eq] at this h
      omega
    have hm : c ∈ orbit c := by
      unfold orbit
      split
      · simp
      · split
        · simp
        · split
          · rename_i e; subst e; exact absurd hc (by decide)
          · split
            · rename_i e; subst e; exact absurd hc (by decide)
            · simp
    exact List.any_eq_true.2 ⟨c, hm, h⟩

theorem star_mono {P Q : Str → Prop} (h : ∀ w, P w → Q w) {w : Str} (hw : Star P w) : Star Q w := by
  induction hw with
  | nil => exact .nil
  | cons u v hu hn _ ih => exact .cons u v (h u hu) hn ih

theorem lang_ci_mono (r : Re) (hr : r.allR asciiR = true) {w : Str} (h : Lang r w) : Lang r.ci w := by
  induction r generalizing w with
  | cls f rs =>
    obtain ⟨c, rfl, hc⟩ := h
    exact ⟨c, rfl, clsHas_mono hr hc⟩
  | grp i a ih => exact ih hr h
  | cat a b iha ihb =>
    obtain ⟨ha, hb⟩ := Bool.and_eq_true_iff.1 (show (a.allR asciiR && b.allR asciiR) = true from hr)
    obtain ⟨u, v, e, hu, hv⟩ := h
    exact ⟨u, v, e, iha ha hu, ihb hb hv⟩
  | alt a b iha ihb =>
    obtain ⟨ha, hb⟩ := Bool.and_eq_true_iff.1 (show (a.allR asciiR && b.allR asciiR) = true from hr)
    rcases h with h | h
    · exact .inl (iha ha h)
    · exact .inr (ihb hb h)
  | opt a ih =>
    rcases h with h | h
    · exact .inl h
    · exact .inr (ih hr h)
  | star a ih => exact star_mono (fun w hw => ih hr hw) h
  | plus a ih =>
    obtain ⟨u, v, e, hu, hv⟩ := h
    exact ⟨u, v, e, ih hr hu, star_mono (fun w hw => ih hr hw) hv⟩
  | _ => exact h

/-! ### Level 1 -/

theorem isLevel1_iff {s : Str} : L1.isLevel1 s = true ↔
    Lang (Rx.letterPrefixed 1) s ∨ Lang (Rx.seasonNum 1) s ∨ Lang (Rx.seasonText 3) s ∨ Lang (Rx.qualifiedDate 1) s ∨
    Lang (Rx.unspecifiedDigits 1).ci s ∨ Lang (Rx.intervalStart 1) s ∨ Lang (Rx.intervalEnd 1) s ∨ Lang (Rx.negativeYear 1) s := by
  unfold L1.isLevel1 Rx.Level1
  rw [matchString_anch _ (by decide), lang_grp]
  simp only [lang_alt]
  rw [lang_ci_noLetter (r := Rx.qualifiedDate 7) (by decide), lang_ci_noLetter (r := Rx.intervalStart 14) (by decide),
    lang_ci_noLetter (r := Rx.intervalEnd 18) (by decide), lang_ci_noLetter (r := Rx.negativeYear 22) (by decide),
    lang_regroup (r := Rx.letterPrefixed 2) (r' := Rx.letterPrefixed 1) (by decide),
    lang_regroup (r := Rx.seasonNum 3) (r' := Rx.seasonNum 1) (by decide),
    lang_regroup (r := Rx.seasonText 5) (r' := Rx.seasonText 3) (by decide),
    lang_regroup (r := Rx.qualifiedDate 7) (r' := Rx.qualifiedDate 1) (by decide),
    lang_regroup (r := (Rx.unspecifiedDigits 11).ci) (r' := (Rx.unspecifiedDigits 1).ci) (by decide),
    lang_regroup (r := Rx.intervalStart 14) (r' := Rx.intervalStart 1) (by decide),
    lang_regroup (r := Rx.intervalEnd 18) (r' := Rx.intervalEnd 1) (by decide),
    lang_regroup (r := Rx.negativeYear 22) (r' := Rx.negativeYear 1) (by decide)]

theorem isLetter_iff {s : Str} : L1.isLetterPrefixedCalendarYear s = true ↔ Lang (Rx.letterPrefixed 1) s :=
  matchString_anch _ (by decide) s
theorem isQualifiedDate_iff {s : Str} : L1.isQualifiedDate s = true ↔ Lang (Rx.qualifiedDate 1) s :=
  matchString_anch _ (by decide) s
theorem isUnspecifiedDigits_iff {s : Str} : L1.isUnspecifiedDigits s = true ↔ Lang (Rx.unspecifiedDigits 1) s :=
  matchString_anch _ (by decide) s
theorem isNegativeYear_iff {s : Str} : L1.isNegativeCalendarYear s = true ↔ Lang (Rx.negativeYear 1) s :=
  matchString_anch _ (by decide) s
theorem isIntervalStart_iff {s : Str} : Rx.IntervalStart.matchString s = true ↔ Lang (Rx.intervalStart 1) s :=
  matchString_anch _ (by decide) s
theorem isIntervalEnd_iff {s : Str} : Rx.IntervalEnd.matchString s = true ↔ Lang (Rx.intervalEnd 1) s :=
  matchString_anch _ (by decide) s

/-! ### Level 2 -/

theorem matchString_prefix (r : Re) (hr : r.free = true) (s : Str) :
    (Re.cat .bos r).matchString s = true ↔ ∃ u v, s = u ++ v ∧ Lang r u := by
  unfold Re.matchString
  rw [search_bos]
  constructor
  · intro h
    cases hh : (r.run ⟨true, s, []⟩) with
    | nil => rw [hh] at h; cases h
    | cons a as =>
      obtain ⟨w, e, l, -⟩ := run_skip (show a ∈ r.run ⟨true, s, []⟩ by rw [hh]; simp)
      exact ⟨w, _, e, l⟩
  · rintro ⟨u, v, rfl, hl⟩
    obtain ⟨t, ht, -⟩ := run_complete r hr u true v [] hl
    cases hh : (r.run ⟨true, u ++ v, []⟩) with
    | nil => rw [hh] at ht; cases ht
    | cons a as => rfl

theorem isLevel2_iff {s : Str} : L2.isLevel2 s = true ↔ ∃ u v, s = u ++ v ∧
    (Lang (Rx.exponentialYear 1) u ∨ Lang (Rx.significantDigits 1).ci u ∨ Lang (Rx.subYearGrouping 1) u ∨
     Lang (Rx.setRepresentations 1) u ∨ Lang (Rx.groupQualification 1) u ∨ Lang (Rx.individualQualification 1) u ∨
     Lang (Rx.unspecifiedDigit 1).ci u ∨ Lang (Rx.interval 1).ci u) := by
  unfold L2.isLevel2 Rx.Level2
  rw [matchString_prefix _ (by decide)]
  simp only [lang_alt, lang_grp]
  simp only [lang_ci_noLetter (r := Rx.subYearGrouping 7) (by decide), lang_ci_noLetter (r := Rx.setRepresentations 9) (by decide),
    lang_ci_noLetter (r := Rx.groupQualification 14) (by decide), lang_ci_noLetter (r := Rx.individualQualification 20) (by decide),
    lang_regroup (r := Rx.exponentialYear 2) (r' := Rx.exponentialYear 1) (by decide),
    lang_regroup (r := (Rx.significantDigits 3).ci) (r' := (Rx.significantDigits 1).ci) (by decide),
    lang_regroup (r := Rx.subYearGrouping 7) (r' := Rx.subYearGrouping 1) (by decide),
    lang_regroup (r := Rx.setRepresentations 9) (r' := Rx.setRepresentations 1) (by decide),
    lang_regroup (r := Rx.groupQualification 14) (r' := Rx.groupQualification 1) (by decide),
    lang_regroup (r := Rx.individualQualification 20) (r' := Rx.individualQualification 1) (by decide),
    lang_regroup (r := (Rx.unspecifiedDigit 26).ci) (r' := (Rx.unspecifiedDigit 1).ci) (by decide),
    lang_regroup (r := (Rx.interval 29).ci) (r' := (Rx.interval 1).ci) (by decide)]

theorem isExponential_iff {s : Str} : L2.isExponentialYear s = true ↔ Lang (Rx.exponentialYear 1) s :=
  matchString_anch _ (by decide) s
theorem isSig_iff {s : Str} : L2.isSignificantDigits s = true ↔ Lang (Rx.significantDigits 1) s :=
  matchString_anch _ (by decide) s
theorem isSubYear_iff {s : Str} : L2.isSubYearGrouping s = true ↔ Lang (Rx.subYearGrouping 1) s :=
  matchString_anch _ (by decide) s
theorem isSet_iff {s : Str} : L2.isSetRepresentation s = true ↔ Lang (Rx.setRepresentations 1) s :=
  matchString_anch _ (by decide) s
theorem isGroup_iff {s : Str} : L2.isGroupQualification s = true ↔ Lang (Rx.groupQualification 1) s :=
  matchString_anch _ (by decide) s
theorem isIndividual_iff {s : Str} : L2.isIndividualQualification s = true ↔ Lang (Rx.individualQualification 1) s :=
  matchString_anch _ (by decide) s
theorem isUnspecifiedDigit_iff {s : Str} : L2.isUnspecifiedDigit s = true ↔ Lang (Rx.unspecifiedDigit 1) s :=
  matchString_anch _ (by decide) s
theorem isInterval_iff {s : Str} : L2.isInterval s = true ↔ Lang (Rx.interval 1) s :=
  matchString_anch _ (by decide) s

/-- Each level 2 feature test implies the level 2 test. -/
theorem isLevel2_of {s : Str} (h : L2.isExponentialYear s = true ∨ L2.isSignificantDigits s = true ∨ L2.isSubYearGrouping s = true ∨
    L2.isSetRepresentation s = true ∨ L2.isGroupQualification s = true ∨ L2.isIndividualQualification s = true ∨
    L2.isUnspecifiedDigit s = true ∨ L2.isInterval s = true) : L2.isLevel2 s = true := by
  rw [isExponential_iff, isSig_iff, isSubYear_iff, isSet_iff, isGroup_iff, isIndividual_iff, isUnspecifiedDigit_iff, isInterval_iff] at h
  refine isLevel2_iff.2 ⟨s, [], (List.append_nil s).symm, ?_⟩
  rcases h with h | h | h | h | h | h | h | h
  · exact .inl h
  · exact .inr (.inl (lang_ci_mono _ (by decide) h))
  · exact .inr (.inr (.inl h))
  · exact .inr (.inr (.inr (.inl h)))
  · exact .inr (.inr (.inr (.inr (.inl h))))
  · exact .inr (.inr (.inr (.inr (.inr (.inl h)))))
  · exact .inr (.inr (.inr (.inr (.inr (.inr (.inl (lang_ci_mono _ (by decide) h)))))))
  · exact .inr (.inr (.inr (.inr (.inr (.inr (.inr (lang_ci_mono _ (by decide) h)))))))

/-! ### Ruling levels out -/

/-- `c` occurs in no level 0 pattern. -/
theorem not_level0_char {s : Str} {c : Char} (hc : c ∈ s)
    (h : (Re.grp 1 (Rx.date 2 ∥ Rx.dateAndTime 5 ∥ Rx.timeInterval 16)).mayHave c = false) : L0.isLevel0 s = false := by
  unfold L0.isLevel0 Rx.Level0
  rw [matchString_anch_false _ (by decide)]
  exact not_lang_of_char h hc

theorem not_level1_char {s : Str} {c : Char} (hc : c ∈ s)
    (h : (Re.grp 1 (Rx.letterPrefixed 2 ∥ Rx.seasonNum 3 ∥ Rx.seasonText 5 ∥ (Rx.qualifiedDate 7).ci ∥
    (Rx.unspecifiedDigits 11).ci ∥ (Rx.intervalStart 14).ci ∥ (Rx.intervalEnd 18).ci ∥ (Rx.negativeYear 22).ci)).mayHave c = false) :
    L1.isLevel1 s = false := by
  unfold L1.isLevel1 Rx.Level1
  rw [matchString_anch_false _ (by decide)]
  exact not_lang_of_char h hc

theorem parse_level1 {s : Str} (h0 : L0.isLevel0 s = false) (h1 : L1.isLevel1 s = true) : parseString s = L1.parseString s := by
  unfold parseString; rw [h0, h1]; rfl

theorem parse_level2 {s : Str} (h0 : L0.isLevel0 s = false) (h1 : L1.isLevel1 s = false) (h2 : L2.isLevel2 s = true) :
    parseString s = L2.parseString s := by
  unfold parseString; rw [h0, h1, h2]; rfl

end EDTF
