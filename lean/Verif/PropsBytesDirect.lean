/- C104: the single parsers, tests and helpers on bytes. -/
import Verif.SpecBytesDirect
import Verif.LemmasBytesDirect
import Verif.PropsMessageDirect
namespace EDTF
open Spec

/-! ### Patterns -/

theorem invalidBytes_text {l : Str} (hl : ∀ c ∈ l, c.toNat < 0x80) (b : Bytes) : invalidBytes l b = invalidBytesText l b := by
  unfold invalidBytes invalidBytesText
  rw [encode_ascii (s := c! "Invalid EDTF string '") (by decide), encode_ascii]
  intro c hc
  simp only [List.mem_append] at hc
  rcases hc with (hc | hc) | hc
  · revert c; decide
  · exact hl c hc
  · revert c; decide

theorem invalidBytes_encode (l s : Str) : invalidBytes l (encode s) = encode (Invalid l s).text.get! := by
  unfold invalidBytes
  rw [← encode_append, ← encode_append]
  congr 1
  simp [Invalid, Err.text, quotedWith]

theorem saidOf_bytes (b : Bytes) (x : Told EDTFDate) : SaidOf b x (x.bytes.withBytes b) := by
  cases x with
  | ok d => exact .ok d
  | fault e => exact .fault e _ (encode_isUtf8 _)
  | panic => exact .panic

theorem feature_utf8 {r : Re} {l : Str} {P : Str → Told EDTFDate} (h : ∀ s, r.matchString s = false → P s = .fault (.known (Invalid l s))) :
    SameOnUtf8 (featureBytes r l P) P := by
  intro b s hb
  rw [isUtf8_iff.1 hb]
  unfold featureBytes
  rw [runes_encode]
  split
  · exact saidOf_bytes _ _
  · next k =>
    rw [h s (by simpa using k)]
    refine .fault _ _ ?_
    rw [isUtf8_iff, invalidBytes_encode]
    rfl

theorem broken_mem {b : Bytes} (h : ¬ ∃ s, IsUtf8 b s) : runeError ∈ runes b := by
  obtain ⟨u, hu⟩ := not_utf8.1 h
  obtain ⟨v, hv⟩ := broken_runes hu
  rw [hv]; simp

theorem anch_broken {r : Re} (hf : r.free = true) (hi : r.inside = true) {b : Bytes} (h : ¬ ∃ s, IsUtf8 b s) :
    (Rx.anch r).matchString (runes b) = false := by
  cases hh : (Rx.anch r).matchString (runes b) with
  | false => rfl
  | true => exact absurd (lang_inside hi ((matchString_anch r hf _).1 hh) _ (broken_mem h)) runeError_foreign

theorem feature_broken {r : Re} {l : Str} {P : Str → Told EDTFDate} (hl : ∀ c ∈ l, c.toNat < 0x80)
    (h : ∀ b, (¬ ∃ s, IsUtf8 b s) → r.matchString (runes b) = false) : RefusesBroken (featureBytes r l P) l := by
  intro b hb
  unfold featureBytes
  rw [h b hb, invalidBytes_text hl]
  rfl

theorem whole_no {r : Re} {k : Int} {l s : Str} (h : r.matchString s = false) : parseWholeM (r.matchString s) s k l = .fault (.known (Invalid l s)) := by
  rw [h]; rfl

theorem submatch_no {r : Re} {s : Str} (h : r.matchString s = false) : r.submatch s = none := by
  rw [← isSome_submatch] at h
  cases hh : r.submatch s with
  | none => rfl
  | some m => rw [hh] at h; cases h

/-! ### The patterns that match no other bytes -/

theorem no_date {b : Bytes} (h : ¬ ∃ s, IsUtf8 b s) : Rx.Date.matchString (runes b) = false := anch_broken (by decide) (by decide +kernel) h
theorem no_dateAndTime {b : Bytes} (h : ¬ ∃ s, IsUtf8 b s) : Rx.DateAndTime.matchString (runes b) = false := anch_broken (by decide) (by decide +kernel) h
theorem no_timeInterval {b : Bytes} (h : ¬ ∃ s, IsUtf8 b s) : Rx.TimeInterval.matchString (runes b) = false := anch_broken (by decide) (by decide +kernel) h
theorem no_letter {b : Bytes} (h : ¬ ∃ s, IsUtf8 b s) : Rx.LetterPrefixedCalendarYear.matchString (runes b) = false := anch_broken (by decide) (by decide +kernel) h
theorem no_qualified {b : Bytes} (h : ¬ ∃ s, IsUtf8 b s) : Rx.QualifiedDate.matchString (runes b) = false := anch_broken (by decide) (by decide +kernel) h
theorem no_digits {b : Bytes} (h : ¬ ∃ s, IsUtf8 b s) : Rx.UnspecifiedDigits.matchString (runes b) = false := anch_broken (by decide) (by decide +kernel) h
theorem no_negative {b : Bytes} (h : ¬ ∃ s, IsUtf8 b s) : Rx.NegativeYear.matchString (runes b) = false := anch_broken (by decide) (by decide +kernel) h
theorem no_start {b : Bytes} (h : ¬ ∃ s, IsUtf8 b s) : Rx.IntervalStart.matchString (runes b) = false := anch_broken (by decide) (by decide +kernel) h
theorem no_end {b : Bytes} (h : ¬ ∃ s, IsUtf8 b s) : Rx.IntervalEnd.matchString (runes b) = false := anch_broken (by decide) (by decide +kernel) h
theorem no_level2 {b : Bytes} (h : ¬ ∃ s, IsUtf8 b s) :
    Rx.ExponentialYear.matchString (runes b) = false ∧ Rx.SignificantDigits.matchString (runes b) = false ∧
    Rx.SubYearGrouping.matchString (runes b) = false ∧ Rx.SetRepresentations.matchString (runes b) = false ∧
    Rx.GroupQualification.matchString (runes b) = false ∧ Rx.IndividualQualification.matchString (runes b) = false ∧
    Rx.UnspecifiedDigit.matchString (runes b) = false ∧ Rx.Interval.matchString (runes b) = false := by
  obtain ⟨-, -, k⟩ := foreign_tests (broken_mem h) runeError_foreign
  exact k

/-! ### Seasons -/

theorem seasonOfText_bytes {b : Bytes} {s w y : Str} (h : Lang seasonWord w) : L1.seasonOfTextBytes b w y = (L1.seasonOfTextM s w y).bytes := by
  obtain ⟨z, hz⟩ := seasonWord_upper h
  unfold L1.seasonOfTextBytes L1.seasonOfTextM
  rw [hz]
  cases atoiM y with
  | fault e => rfl
  | panic => rfl
  | ok v => cases z <;> rfl

theorem season_steps (b : Bytes) (s : Str) (F : Int → Told DateSpan) (x : Told Int) :
    (x.bytes >>= fun dm => (F dm).bytes >>= fun sp => (Said.ok ⟨sp.start, sp.stop, b, 1, L1.SEASON⟩ : Said ByteDate)) =
      Said.withBytes b (x >>= fun dm => F dm >>= fun sp => Told.ok (mkEDTF sp s 1 L1.SEASON)).bytes := by
  cases x with
  | fault e => rfl
  | panic => rfl
  | ok dm =>
    show ((F dm).bytes >>= _) = Said.withBytes b (F dm >>= _).bytes
    cases F dm <;> rfl

theorem season_feature (b : Bytes) : L1.parseSeasonBytes b = featureBytes Rx.Season L1.SEASON L1.parseSeasonM b := by
  unfold L1.parseSeasonBytes featureBytes L1.parseSeasonM
  cases hm : Rx.Season.submatch (runes b) with
  | none =>
    have : Rx.Season.matchString (runes b) = false := by rw [← isSome_submatch, hm]; rfl
    rw [this]; rfl
  | some m =>
    have : Rx.Season.matchString (runes b) = true := by rw [← isSome_submatch, hm]; rfl
    rw [this]
    have e : L1.seasonSpanBytes b m = (L1.seasonSpanM (runes b) m).bytes := by
      unfold L1.seasonSpanBytes L1.seasonSpanM
      split
      · next k =>
        rcases season_caps hm with ⟨h1, -, -⟩ | ⟨-, -, h3, -⟩
        · obtain ⟨neg, n, -, e⟩ := lang_year_signed.1 h1
          rw [k] at e
          cases neg <;> cases e
        · exact seasonOfText_bytes h3
      · rfl
    simp only [e, if_true]
    cases L1.seasonSpanM (runes b) m with
    | fault e => rfl
    | panic => rfl
    | ok w =>
      exact season_steps b (runes b) (fun dm => dateSpanFromEDTFM (L1.seasonString w dm)) (daysInMonthM w.end_yyyy w.end_mm)

theorem pad2_ascii (n : Nat) : ∀ c ∈ pad2 n, c.toNat < 0x80 := by
  intro c hc
  simp only [pad2, List.mem_cons, List.not_mem_nil, or_false] at hc
  have k : ∀ i, i < 10 → (dig i).toNat < 0x80 := by decide
  rcases hc with rfl | rfl <;> exact k _ (Nat.mod_lt _ (by decide))

theorem pad4_ascii (n : Nat) : ∀ c ∈ pad4 n, c.toNat < 0x80 := by
  intro c hc
  simp only [pad4, List.mem_cons, List.not_mem_nil, or_false] at hc
  have k : ∀ i, i < 10 → (dig i).toNat < 0x80 := by decide
  rcases hc with rfl | rfl | rfl | rfl <;> exact k _ (Nat.mod_lt _ (by decide))

theorem seasonText_ascii (neg : Bool) (n m : Nat) : ∀ c ∈ signed neg (pad4 n) ++ '-' :: pad2 m, c.toNat < 0x80 := by
  intro c hc
  unfold signed at hc
  rcases List.mem_append.1 hc with h | h
  · cases neg with
    | false => exact pad4_ascii n c h
    | true =>
      rcases List.mem_cons.1 h with rfl | h
      · decide
      · exact pad4_ascii n c h
  · rcases List.mem_cons.1 h with rfl | h
    · decide
    · exact pad2_ascii m c h

theorem not_error {s : Str} (h : ∀ c ∈ s, c.toNat < 0x80) : runeError ∉ s := fun k => absurd (h _ k) (by decide)

theorem start_runes (b : Bytes) : SeasonStart (runes b) ↔ SeasonBytesStart b := by
  constructor
  · rintro ⟨neg, n, m, rest, hn, hm, e⟩
    have ha := seasonText_ascii neg n m
    obtain ⟨w, rfl, -⟩ := runes_prefix (signed neg (pad4 n) ++ '-' :: pad2 m) (r := rest) (not_error ha) (by rw [e]; simp)
    exact ⟨neg, n, m, w, hn, hm, by rw [encode_ascii ha]⟩
  · rintro ⟨neg, n, m, rest, hn, hm, rfl⟩
    rw [← encode_ascii (seasonText_ascii neg n m), runes_append]
    exact ⟨neg, n, m, runes rest, hn, hm, by simp⟩

theorem nameForm_inside {s : Str} (h : SeasonNameForm s) : runeError ∉ s := fun k =>
  runeError_foreign (lang_inside (r := Rx.seasonText 3) (by decide +kernel) (lang_seasonNameForm.2 h) _ k)

/-- The season in the bytes is that in the runes. -/
theorem season_runes (b : Bytes) (y1 : Int) (m1 : Nat) (y2 : Int) (m2 : Nat) : SeasonAt (runes b) y1 m1 y2 m2 ↔ SeasonBytes b y1 m1 y2 m2 := by
  constructor
  · intro h
    generalize hs : runes b = s at h
    cases h with
    | month neg n m hn h1 h2 rest =>
      have ha := seasonText_ascii neg n m1
      obtain ⟨w, rfl, -⟩ := runes_prefix (signed neg (pad4 n) ++ '-' :: pad2 m1) (r := rest) (not_error ha) (by rw [hs]; simp)
      rw [encode_ascii ha]
      exact .month neg n m1 hn h1 h2 w
    | season neg n hn z rest =>
      have ha := seasonText_ascii neg n z.code
      obtain ⟨w, rfl, -⟩ := runes_prefix (signed neg (pad4 n) ++ '-' :: pad2 z.code) (r := rest) (not_error ha) (by rw [hs]; simp)
      rw [encode_ascii ha]
      exact .season neg n hn z w
    | name pre w t1 t2 z n hw h1 h2 hn hp =>
      obtain ⟨v, x, rfl, hx⟩ := runes_suffix pre hs
      have hf : SeasonNameForm (w ++ (t1 ++ ',' :: (t2 ++ pad4 n))) := ⟨w, t1, t2, z, n, hw, h1, h2, hn, rfl⟩
      refine .name v x w t1 t2 z n hw h1 h2 hn (isUtf8_iff.2 (runes_whole (nameForm_inside hf) hx)) ?_
      rw [← start_runes, hs]
      exact hp
  · intro h
    cases h with
    | month neg n m hn h1 h2 rest =>
      rw [← encode_ascii (seasonText_ascii neg n m1), runes_append]
      have := SeasonAt.month neg n m1 hn h1 h2 (runes rest)
      simpa using this
    | season neg n hn z rest =>
      rw [← encode_ascii (seasonText_ascii neg n z.code), runes_append]
      have := SeasonAt.season neg n hn z (runes rest)
      simpa using this
    | name pre x w t1 t2 z n hw h1 h2 hn hx hp =>
      rw [isUtf8_iff.1 hx] at hp ⊢
      rw [← start_runes] at hp
      rw [runes_two (newRune_encode _) _ _ (Nat.le_refl _), runes_encode] at hp ⊢
      exact .name _ w t1 t2 z n hw h1 h2 hn hp

theorem season_match (b : Bytes) : L1.isSeason (runes b) = true ↔ ∃ y1 m1 y2 m2, SeasonBytes b y1 m1 y2 m2 := by
  simp only [← season_runes]
  exact season_form.trans (C65_season_only (runes b)).1.symm

/-! ### The theorems -/

/-- **C104**: where one of these patterns matches, the bytes are UTF-8. -/
theorem C104_matched {b : Bytes} (h : L0.isDate (runes b) = true ∨ L0.isDateAndTime (runes b) = true ∨ L0.isTimeInterval (runes b) = true ∨
    L1.isLetterPrefixedCalendarYear (runes b) = true ∨ L1.isQualifiedDate (runes b) = true ∨ L1.isUnspecifiedDigits (runes b) = true ∨
    L1.isNegativeCalendarYear (runes b) = true ∨ Rx.IntervalStart.matchString (runes b) = true ∨ Rx.IntervalEnd.matchString (runes b) = true ∨
    L2.isExponentialYear (runes b) = true ∨ L2.isSignificantDigits (runes b) = true ∨ L2.isSubYearGrouping (runes b) = true ∨
    L2.isSetRepresentation (runes b) = true ∨ L2.isGroupQualification (runes b) = true ∨ L2.isIndividualQualification (runes b) = true ∨
    L2.isUnspecifiedDigit (runes b) = true ∨ L2.isInterval (runes b) = true) : IsUtf8 b (runes b) := by
  rcases utf8_or_broken b.length b (Nat.le_refl _) with ⟨s, rfl⟩ | ⟨u, hu⟩
  · rw [runes_encode]; exact encode_isUtf8 s
  · exfalso
    have hb : ¬ ∃ s, IsUtf8 b s := not_utf8.2 ⟨u, hu⟩
    obtain ⟨-, -, e1, e2, e3, e4, e5, e6, e7, e8⟩ := foreign_tests (broken_mem hb) runeError_foreign
    rw [show L0.isDate (runes b) = false from no_date hb, show L0.isDateAndTime (runes b) = false from no_dateAndTime hb,
      show L0.isTimeInterval (runes b) = false from no_timeInterval hb, show L1.isLetterPrefixedCalendarYear (runes b) = false from no_letter hb,
      show L1.isQualifiedDate (runes b) = false from no_qualified hb, show L1.isUnspecifiedDigits (runes b) = false from no_digits hb,
      show L1.isNegativeCalendarYear (runes b) = false from no_negative hb, no_start hb, no_end hb, e1, e2, e3, e4, e5, e6, e7, e8] at h
    simp at h

example : IsUtf8 (encode (c! "1985?")) (c! "1985?") := by
  have := C104_matched (b := encode (c! "1985?")) (.inr (.inr (.inr (.inr (.inl (by decide +kernel))))))
  rwa [runes_encode] at this

/-- **C104**: `IsSeason` and `IsExtendedInterval` are true of other bytes too: the first exactly where
there is a season in the bytes, the second always. -/
theorem C104_tests (b : Bytes) : (L1.isSeason (runes b) = true ↔ ∃ y1 m1 y2 m2, SeasonBytes b y1 m1 y2 m2) ∧ L1.isExtendedInterval (runes b) = true := by
  refine ⟨season_match b, ?_⟩
  unfold L1.isExtendedInterval
  repeat' split
  all_goals rfl

theorem broken_april : ¬ ∃ s, IsUtf8 (ascii (c! "1985-04") ++ [0xFF]) s := by
  rw [not_utf8]
  refine ⟨c! "1985-04", ascii (c! "1985-04"), [0xFF], rfl, by unfold IsUtf8; decide, by simp, ?_⟩
  intro c p q e h
  have hp : p = encode [c] := isUtf8_iff.1 h
  obtain ⟨b0, t, hb, hd⟩ := decode_complete c (b := [0xFF]) (r := q) (by rw [e, List.map_append, h]; simp)
  cases hb
  cases hd

theorem season_april : SeasonBytes (ascii (c! "1985-04") ++ [0xFF]) 1985 4 1985 4 := .month false 1985 4 (by decide) (by decide) (by decide) [0xFF]

example : L1.isSeason (runes (ascii (c! "1985-04") ++ [0xFF])) = true := (C104_tests _).1.2 ⟨_, _, _, _, season_april⟩

theorem extended_utf8 : SameOnUtf8 L1.parseExtendedIntervalBytes L1.parseExtendedIntervalM := by
  intro b s hb
  have h1 : SameOnUtf8 L1.parseExtendedIntervalStartBytes L1.parseExtendedIntervalStartM := feature_utf8 fun _ h => whole_no h
  have h2 : SameOnUtf8 L1.parseExtendedIntervalEndBytes L1.parseExtendedIntervalEndM := feature_utf8 fun _ h => whole_no h
  have k1 := h1 b s hb
  have k2 := h2 b s hb
  have e : runes b = s := by rw [isUtf8_iff.1 hb, runes_encode]
  unfold L1.parseExtendedIntervalBytes L1.parseExtendedIntervalM
  rw [e]
  split
  · exact k1
  · split
    · exact k2
    · refine .fault _ _ ?_
      rw [isUtf8_iff, isUtf8_iff.1 hb, invalidBytes_encode]
      rfl

theorem fault_utf8 {b : Bytes} {s : Str} (h : IsUtf8 b s) (l : Str) : SaidOf b (.fault (.known (Invalid l s))) (.fault (invalidBytes l b)) := by
  refine .fault _ _ ?_
  rw [isUtf8_iff, isUtf8_iff.1 h, invalidBytes_encode]
  rfl

theorem season_utf8 : SameOnUtf8 L1.parseSeasonBytes L1.parseSeasonM := by
  have : L1.parseSeasonBytes = featureBytes Rx.Season L1.SEASON L1.parseSeasonM := funext season_feature
  rw [this]
  exact feature_utf8 fun _ h => by unfold L1.parseSeasonM; rw [submatch_no h]

/-- **C104**: on UTF-8 each of the parsers says what it says of the characters. -/
theorem C104_utf8 :
    (SameOnUtf8 L0.parseDateBytes L0.parseDateM ∧ SameOnUtf8 L0.parseDateAndTimeBytes L0.parseDateAndTimeM ∧
      SameOnUtf8 L0.parseTimeIntervalBytes L0.parseTimeIntervalM) ∧
    (SameOnUtf8 L1.parseLetterPrefixedCalendarYearBytes L1.parseLetterPrefixedCalendarYearM ∧ SameOnUtf8 L1.parseSeasonBytes L1.parseSeasonM ∧
      SameOnUtf8 L1.parseQualifiedDateBytes L1.parseQualifiedDateM ∧ SameOnUtf8 L1.parseUnspecifiedDigitsBytes L1.parseUnspecifiedDigitsM ∧
      SameOnUtf8 L1.parseNegativeCalendarYearBytes L1.parseNegativeCalendarYearM ∧ SameOnUtf8 L1.parseExtendedIntervalStartBytes L1.parseExtendedIntervalStartM ∧
      SameOnUtf8 L1.parseExtendedIntervalEndBytes L1.parseExtendedIntervalEndM ∧ SameOnUtf8 L1.parseExtendedIntervalBytes L1.parseExtendedIntervalM) ∧
    (SameOnUtf8 L2.parseExponentialYearBytes L2.parseExponentialYearM ∧ SameOnUtf8 L2.parseSignificantDigitsBytes L2.parseSignificantDigitsM ∧
      SameOnUtf8 L2.parseSubYearGroupingsBytes L2.parseSubYearGroupingsM ∧ SameOnUtf8 L2.parseSetRepresentationsBytes L2.parseSetRepresentationsM ∧
      SameOnUtf8 L2.parseGroupQualificationBytes L2.parseGroupQualificationM ∧ SameOnUtf8 L2.parseIndividualQualificationBytes L2.parseIndividualQualificationM ∧
      SameOnUtf8 L2.parseUnspecifiedDigitBytes L2.parseUnspecifiedDigitM ∧ SameOnUtf8 L2.parseIntervalBytes L2.parseIntervalM) :=
  ⟨⟨feature_utf8 fun _ h => whole_no h, feature_utf8 fun _ h => by unfold L0.parseDateAndTimeM; rw [submatch_no h], feature_utf8 fun _ h => whole_no h⟩,
   ⟨feature_utf8 fun _ h => by unfold L1.parseLetterPrefixedCalendarYearM; rw [submatch_no h], season_utf8,
    feature_utf8 fun _ h => whole_no h, feature_utf8 fun _ h => whole_no h, feature_utf8 fun _ h => whole_no h, feature_utf8 fun _ h => whole_no h,
    feature_utf8 fun _ h => whole_no h, extended_utf8⟩,
   ⟨feature_utf8 fun _ h => by unfold L2.parseExponentialYearM; rw [submatch_no h], feature_utf8 fun _ h => by unfold L2.parseSignificantDigitsM; rw [submatch_no h],
    feature_utf8 fun _ h => by unfold L2.parseSubYearGroupingsM; rw [submatch_no h], feature_utf8 fun _ h => by unfold L2.parseSetRepresentationsM; rw [submatch_no h],
    feature_utf8 fun _ h => whole_no h, feature_utf8 fun _ h => whole_no h, feature_utf8 fun _ h => whole_no h, feature_utf8 fun _ h => whole_no h⟩⟩

example : L0.parseDateBytes [0xC3, 0xA9] = .fault (encode (c! "Invalid EDTF string 'é' (Date)")) := by
  have h := C104_utf8.1.1 [0xC3, 0xA9] (c! "é") (by unfold IsUtf8; decide)
  rw [show L0.parseDateM (c! "é") = .fault (.known (Invalid (c! "Date") (c! "é"))) by decide +kernel] at h
  generalize L0.parseDateBytes [0xC3, 0xA9] = r at h
  cases h with
  | fault _ t h => rw [isUtf8_iff.1 h]; rfl

/-- **C104**: all but that for seasons refuse any other bytes. -/
theorem C104_refused :
    (RefusesBroken L0.parseDateBytes (c! "Date") ∧ RefusesBroken L0.parseDateAndTimeBytes (c! "Date and Time") ∧
      RefusesBroken L0.parseTimeIntervalBytes (c! "Time Interval")) ∧
    (RefusesBroken L1.parseLetterPrefixedCalendarYearBytes (c! "Letter-prefixed calendar year") ∧
      RefusesBroken L1.parseQualifiedDateBytes (c! "Qualification of a date (complete)") ∧
      RefusesBroken L1.parseUnspecifiedDigitsBytes (c! "Unspecified digit(s) from the right") ∧
      RefusesBroken L1.parseNegativeCalendarYearBytes (c! "Negative calendar year") ∧
      RefusesBroken L1.parseExtendedIntervalStartBytes (c! "Extended Interval (Start)") ∧
      RefusesBroken L1.parseExtendedIntervalEndBytes (c! "Extended Interval (End)") ∧ RefusesBroken L1.parseExtendedIntervalBytes (c! "Extended Interval")) ∧
    (RefusesBroken L2.parseExponentialYearBytes (c! "Exponential year") ∧ RefusesBroken L2.parseSignificantDigitsBytes (c! "Significant digits") ∧
      RefusesBroken L2.parseSubYearGroupingsBytes (c! "Sub-year groupings") ∧ RefusesBroken L2.parseSetRepresentationsBytes (c! "Set representation") ∧
      RefusesBroken L2.parseGroupQualificationBytes (c! "Qualification (Group)") ∧
      RefusesBroken L2.parseIndividualQualificationBytes (c! "Qualification (Individual)") ∧
      RefusesBroken L2.parseUnspecifiedDigitBytes (c! "Unspecified Digit") ∧ RefusesBroken L2.parseIntervalBytes (c! "Interval")) ∧
    RefusesBroken L0.parseStringBytes (c! "Invalid Level 0 string") ∧ RefusesBroken L2.parseStringBytes (c! "Invalid or unsupported Level 2 string") := by
  refine ⟨⟨feature_broken (by decide) fun _ => no_date, feature_broken (by decide) fun _ => no_dateAndTime, feature_broken (by decide) fun _ => no_timeInterval⟩,
    ⟨feature_broken (by decide) fun _ => no_letter, feature_broken (by decide) fun _ => no_qualified, feature_broken (by decide) fun _ => no_digits,
     feature_broken (by decide) fun _ => no_negative, feature_broken (by decide) fun _ => no_start, feature_broken (by decide) fun _ => no_end, ?_⟩,
    ⟨feature_broken (by decide) fun _ h => (no_level2 h).1, feature_broken (by decide) fun _ h => (no_level2 h).2.1,
     feature_broken (by decide) fun _ h => (no_level2 h).2.2.1, feature_broken (by decide) fun _ h => (no_level2 h).2.2.2.1,
     feature_broken (by decide) fun _ h => (no_level2 h).2.2.2.2.1, feature_broken (by decide) fun _ h => (no_level2 h).2.2.2.2.2.1,
     feature_broken (by decide) fun _ h => (no_level2 h).2.2.2.2.2.2.1, feature_broken (by decide) fun _ h => (no_level2 h).2.2.2.2.2.2.2⟩, ?_, ?_⟩
  · intro b h
    unfold L1.parseExtendedIntervalBytes
    rw [no_start h, no_end h, invalidBytes_text (by decide)]
    rfl
  · intro b h
    unfold L0.parseStringBytes
    rw [show L0.isDate (runes b) = false from no_date h, show L0.isDateAndTime (runes b) = false from no_dateAndTime h,
      show L0.isTimeInterval (runes b) = false from no_timeInterval h, invalidBytes_text (by decide)]
    rfl
  · intro b h
    obtain ⟨-, -, e1, e2, e3, e4, e5, e6, e7, e8⟩ := foreign_tests (broken_mem h) runeError_foreign
    unfold L2.parseStringBytes
    rw [e1, e2, e3, e4, e5, e6, e7, e8, invalidBytes_text (by decide)]
    rfl

example : L0.parseDateBytes (ascii (c! "1985-04") ++ [0xFF]) = .fault (ascii (c! "Invalid EDTF string '1985-04") ++ [0xFF] ++ ascii (c! "' (Date)")) :=
  C104_refused.1.1 _ broken_april

/-- **C104**: the parser for seasons reads the season in the bytes, whether they are UTF-8 or not;
the result has all bytes as its text. -/
theorem C104_season (hf : DayCount f) {b : Bytes} {y1 y2 : Int} {m1 m2 : Nat} (h : SeasonBytes b y1 m1 y2 m2) :
    (y2 < 10000 → (∀ d, L1.parseSeasonBytes b = .ok d ↔ ∃ S E, SpanText f (monthsText y1 m1 y2 m2) S E ∧ d = ⟨some S, some E, b, 1, c! "Seasons"⟩) ∧
      ∀ t, L1.parseSeasonBytes b = .fault t ↔ ∃ e w, SpanFails (monthsText y1 m1 y2 m2) e ∧ KnownText e w ∧ IsUtf8 t w) ∧
    (10000 ≤ y2 → L1.parseSeasonBytes b = .fault (ascii winterText)) ∧ L1.parseSeasonBytes b ≠ .panic := by
  have hs := (season_runes b y1 m1 y2 m2).2 h
  have hm : Rx.Season.matchString (runes b) = true := (season_match b).2 ⟨_, _, _, _, h⟩
  have e : L1.parseSeasonBytes b = (L1.parseSeasonM (runes b)).bytes.withBytes b := by
    rw [season_feature, featureBytes, if_pos hm]
  obtain ⟨o1, o2⟩ := C65_season hf hs
  have c := C84_season hs
  have g := L1.parseSeasonM_forget (runes b)
  rw [e]
  generalize L1.parseSeasonM (runes b) = x at g c
  have hnp : x ≠ .panic := by
    rintro rfl
    by_cases k : y2 < 10000
    · exact (o1 k).returns g.symm
    · rw [o2 (by omega)] at g; cases g
  refine ⟨fun k => ⟨fun d => ?_, fun t => ?_⟩, fun k => ?_, ?_⟩
  · have a := (o1 k).accepts
    rw [← g] at a
    cases x with
    | panic => exact absurd rfl hnp
    | fault e' =>
      constructor
      · intro q; cases q
      · rintro ⟨S, E, hS, -⟩
        have := (a ⟨some S, some E, runes b, 1, c! "Seasons"⟩).2 ⟨S, E, hS, rfl⟩
        cases this
    | ok d' =>
      obtain ⟨S, E, hS, rfl⟩ := (a d').1 rfl
      constructor
      · intro q; injection q with q; exact ⟨S, E, hS, q.symm⟩
      · rintro ⟨S', E', hS', rfl⟩
        have := (a ⟨some S', some E', runes b, 1, c! "Seasons"⟩).2 ⟨S', E', hS', rfl⟩
        injection this with this
        injection this with q1 q2
        injection q1 with q1
        injection q2 with q2
        rw [q1, q2]; rfl
  · have ht : x.bytes.withBytes b = .fault t ↔ ∃ w, Complains x w ∧ IsUtf8 t w := by
      cases x with
      | panic => exact absurd rfl hnp
      | ok d' =>
        constructor
        · intro q; cases q
        · rintro ⟨w, ⟨e', q, -⟩, -⟩; cases q
      | fault e' =>
        constructor
        · intro q; injection q with q; exact ⟨e'.text, ⟨e', rfl, rfl⟩, by rw [← q]; exact encode_isUtf8 _⟩
        · rintro ⟨w, ⟨e'', q, rfl⟩, hu⟩
          injection q with q
          rw [isUtf8_iff.1 hu, ← q]; rfl
    rw [ht]
    constructor
    · rintro ⟨w, hc, hu⟩
      rcases (c w).1 hc with ⟨-, e', h1, h2⟩ | ⟨q, -⟩
      · exact ⟨e', w, h1, h2, hu⟩
      · omega
    · rintro ⟨e', w, h1, h2, hu⟩
      exact ⟨w, (c w).2 (.inl ⟨k, e', h1, h2⟩), hu⟩
  · obtain ⟨e', rfl, he⟩ := (c winterText).2 (.inr ⟨k, rfl⟩)
    show Said.fault (encode e'.text) = _
    rw [he, encode_ascii (by decide)]
  · cases x with
    | panic => exact absurd rfl hnp
    | ok => intro q; cases q
    | fault => intro q; cases q

/-- **C104**: and refuses bytes in which there is none. -/
theorem C104_season_only {b : Bytes} (h : ¬ ∃ y1 m1 y2 m2, SeasonBytes b y1 m1 y2 m2) :
    L1.parseSeasonBytes b = .fault (invalidBytesText (c! "Seasons") b) := by
  have hm : ¬ Rx.Season.matchString (runes b) = true := fun k => h ((season_match b).1 k)
  rw [season_feature, featureBytes, if_neg hm, invalidBytes_text (by decide)]
  rfl

example : (match L1.parseSeasonBytes (ascii (c! "1985-04") ++ [0xFF]) with
    | .ok d => d.edtf == ascii (c! "1985-04") ++ [0xFF]
    | _ => false) = true := by decide +kernel

/-- **C104**: so does the parser of Level 1, which says of all other bytes that are not UTF-8 that
they are no extended interval. -/
theorem C104_level1 {b : Bytes} (h : ¬ ∃ s, IsUtf8 b s) :
    ((∃ y1 m1 y2 m2, SeasonBytes b y1 m1 y2 m2) → L1.parseStringBytes b = L1.parseSeasonBytes b) ∧
    ((¬ ∃ y1 m1 y2 m2, SeasonBytes b y1 m1 y2 m2) → L1.parseStringBytes b = .fault (invalidBytesText (c! "Extended Interval") b)) := by
  have hx := (C104_tests b).2
  unfold L1.parseStringBytes
  rw [show L1.isLetterPrefixedCalendarYear (runes b) = false from no_letter h, show L1.isQualifiedDate (runes b) = false from no_qualified h,
    show L1.isUnspecifiedDigits (runes b) = false from no_digits h, show L1.isNegativeCalendarYear (runes b) = false from no_negative h, hx]
  constructor
  · intro k
    rw [(season_match b).2 k]; rfl
  · intro k
    have : L1.isSeason (runes b) = false := by
      cases hh : L1.isSeason (runes b) with
      | false => rfl
      | true => exact absurd ((season_match b).1 hh) k
    rw [this, C104_refused.2.1.2.2.2.2.2.2 b h]
    rfl

example : L1.parseStringBytes (ascii (c! "1985-04") ++ [0xFF]) = L1.parseSeasonBytes (ascii (c! "1985-04") ++ [0xFF]) :=
  (C104_level1 broken_april).1 ⟨_, _, _, _, season_april⟩

/-- **C104**: on UTF-8 the parsers of the levels say what they say of the characters. -/
theorem C104_levels : SameOnUtf8 L0.parseStringBytes L0.parseStringM ∧ SameOnUtf8 L1.parseStringBytes L1.parseStringM ∧
    SameOnUtf8 L2.parseStringBytes L2.parseStringM := by
  obtain ⟨⟨a1, a2, a3⟩, ⟨b1, b2, b3, b4, b5, -, -, b6⟩, ⟨c1, c2, c3, c4, c5, c6, c7, c8⟩⟩ := C104_utf8
  refine ⟨fun b s h => ?_, fun b s h => ?_, fun b s h => ?_⟩
  · have e : runes b = s := by rw [isUtf8_iff.1 h, runes_encode]
    unfold L0.parseStringBytes L0.parseStringM
    rw [e]
    repeat' split
    · exact a1 b s h
    · exact a2 b s h
    · exact a3 b s h
    · exact fault_utf8 h _
  · have e : runes b = s := by rw [isUtf8_iff.1 h, runes_encode]
    unfold L1.parseStringBytes L1.parseStringM
    rw [e]
    repeat' split
    · exact b1 b s h
    · exact b2 b s h
    · exact b3 b s h
    · exact b4 b s h
    · exact b5 b s h
    · exact b6 b s h
    · exact fault_utf8 h _
  · have e : runes b = s := by rw [isUtf8_iff.1 h, runes_encode]
    unfold L2.parseStringBytes L2.parseStringM
    rw [e]
    repeat' split
    · exact c1 b s h
    · exact c2 b s h
    · exact c3 b s h
    · exact c4 b s h
    · exact c5 b s h
    · exact c6 b s h
    · exact c7 b s h
    · exact c8 b s h
    · exact fault_utf8 h _

example : SaidOf (encode (c! "1985-04")) (L0.parseStringM (c! "1985-04")) (L0.parseStringBytes (encode (c! "1985-04"))) :=
  C104_levels.1 _ _ (encode_isUtf8 _)
example : (match L0.parseStringBytes (encode (c! "1985-04")) with
    | .ok d => d.edtf == encode (c! "1985-04")
    | _ => false) = true := by decide +kernel

end EDTF
