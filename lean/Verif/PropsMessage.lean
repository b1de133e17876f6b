/-
Property C79: what the error of ParseString says, for every string.
-/
import Verif.LemmasMessage5
import Verif.PropsText
namespace EDTF
open Spec Told

/-- C79: with the texts dropped, the parser with texts is the parser. -/
theorem C79_forget (s : Str) : (parseStringM s).forget = parseString s := parseStringM_forget s

example : parseStringM (c! "1985-04-31") = .says (c! "Invalid days for month") ∧ parseString (c! "1985-04-31") = .err .plain := by decide +kernel
example : parseStringM (c! "Y-17E7") = .fault (.known (.unsupported (c! "exponential notation") (c! "-17E7"))) := by decide +kernel

/-- C79: what the reader of dates says. -/
theorem C79_date (s t : Str) : dateSpanFromYMDM s = .says t ↔ DateText s t := date_says_iff

example : dateSpanFromYMDM (c! "-198X") = .says (c! "strconv.ParseInt: parsing \"-\": invalid syntax") := by decide +kernel
example : DateText (c! "1985-X1") (c! "strconv.Atoi: parsing \"X1\": invalid syntax") := (C79_date _ _).1 (by decide +kernel)

/-- C79: what the reader of dates and times says. -/
theorem C79_time (s t : Str) : (L0.isDateAndTime s = true ∧ L0.parseDateAndTimeM s = .says t) ↔ ClockText s t := time_says_iff

example : ClockText (c! "1985-04-31T10:00:00+25:61") (c! "parsing time \"1985-04-31T10:00:00+25:61\": time zone offset minute out of range") :=
  (C79_time _ _).1 (by decide +kernel)
example : ClockText (c! "-1985T10:00:00") (c! "parsing time \"-1985T10:00:00\" as \"-2006-01-02T15:04:05\": cannot parse \"T10:00:00\" as \"-\"") :=
  (C79_time _ _).1 (by decide +kernel)

theorem says_err {s t : Str} (h : parseStringM s = .says t) : Fails s .plain := by
  rw [← C62_error, ← parseStringM_forget, h]
  rfl

theorem fails_says {s : Str} (h : Fails s .plain) : ∃ t, parseStringM s = .says t := by
  rw [← C62_error, ← parseStringM_forget] at h
  exact plain_says h

theorem says_inj {s t u : Str} (h : parseStringM s = .says t) (k : parseStringM s = .says u) : t = u := by
  rw [h] at k
  injection k with k
  injection k with _ k

theorem time_dispatch {s : Str} (h : TimeForm s) : parseStringM s = L0.parseDateAndTimeM s := by
  have h0 : L0.isLevel0 s = true := (C61_level0 s).2 (.inr (.inl h))
  have h1 := (C58_time s).2 h
  have h2 : L0.isDate s = false := by
    rw [← Bool.not_eq_true, C58_date]
    obtain ⟨d, _, _, _, z, -, -, -, -, -, rfl⟩ := h
    rintro ⟨x, hx, e⟩
    have hT : 'T' ∈ x.text := by rw [← e]; simp
    obtain ⟨y, hy, e2⟩ := shape_endpoint ⟨x, hx, rfl⟩
    rw [e2] at hT
    exact e_not_mem hy.1 (by decide) (by decide) (by decide) hT
  unfold parseStringM L0.parseStringM
  rw [h0, h1, h2]
  rfl

theorem name_dispatch {w t1 t2 : Str} (hw : Folded (c! "winter") w) (h1 : Blank t1) (h2 : Blank t2) {t : Str}
    (h : parseStringM (w ++ (t1 ++ ',' :: (t2 ++ c! "9999"))) = .says t) : t = winterText := by
  have hn : SeasonNameForm (w ++ (t1 ++ ',' :: (t2 ++ c! "9999"))) := ⟨w, t1, t2, .winter, 9999, hw, h1, h2, by decide, rfl⟩
  have hc : ',' ∈ w ++ (t1 ++ ',' :: (t2 ++ c! "9999")) := by simp
  have hw' := (lang_word_iff (season_low .winter).1 (season_low .winter).2).2 hw
  have hs := (season_text .winter hw' h1 h2 (n := 9999) (by decide)).1
  have hs : L1.isSeason (w ++ (t1 ++ ',' :: (t2 ++ c! "9999"))) = true := hs
  generalize w ++ (t1 ++ ',' :: (t2 ++ c! "9999")) = s at *
  have h0 : L0.isLevel0 s = false := not_level0_of hc (by decide) (by decide)
  have hl : L1.isLevel1 s = true := (C61_level1_partial s).2 (.inr (.inr (.inl hn)))
  have hnl : L1.isLetterPrefixedCalendarYear s = false := by
    rw [← Bool.not_eq_true, isLetter_iff]
    exact not_lang_of_char (c := ',') (by decide) hc
  unfold parseStringM L1.parseStringM at h
  rw [h0, hl, hnl, hs] at h
  simp only [Bool.false_eq_true, if_false, if_true] at h
  exact (season_says hl h).1

theorem dateText_ne {a t : Str} (h : DateText a t) (k : a = [] ∨ a = c! ".." ∨ Reads a) : False := by
  rcases k with rfl | rfl | k
  · obtain ⟨e, he, k⟩ := dateText_like h
    exact e_nonempty he.1 k.symm
  · exact dateText_not_mem h (c := '.') (by decide) (by decide) (by decide) (by decide)
  · exact reads_not_fails k (dateText_fails h)

/-- C79: the text of every plain error. -/
theorem C79_plain (s t : Str) : parseStringM s = .says t ↔ Explains s t := by
  constructor
  · intro h
    have hF := says_err h
    generalize he : Err.plain = e at hF
    cases hF with
    | single s e hs h1 h2 hn hd =>
      subst he
      obtain ⟨u, hu⟩ := dateText_of_fails hd
      exact .single s t hs h1 h2 hn (single_says h2 h1 hu h)
    | time s hs hn =>
      rw [time_dispatch hs] at h
      exact .time s t (time_says_iff.1 ⟨(C58_time s).2 hs, h⟩)
    | left a b e hs ha hd =>
      subst he
      obtain ⟨u, hu⟩ := dateText_of_fails hd
      rcases interval_says (hs.imp id .inl) ha h with k | ⟨k, -⟩
      · exact .left a b t hs ha k
      · exact absurd k (dateText_ne hu)
    | right a b e hs ha h1 hd =>
      subst he
      rcases interval_says hs ha h with k | ⟨-, k⟩
      · exact absurd h1 (dateText_ne k)
      · exact .right a b t hs ha h1 k
    | lastWinter =>
      rw [says_inj h (show parseStringM (c! "9999-24") = .says winterText by decide +kernel)]
      exact .lastWinter
    | lastWinterName w t1 t2 hw h1 h2 =>
      rw [name_dispatch hw h1 h2 h]
      exact .lastWinterName w t1 t2 hw h1 h2
    | exponential yc ec hy hec neg ms es hm hes e hx =>
      subst he
      cases hx with
      | large hl =>
        obtain ⟨u, hu⟩ : ∃ u, ExpText es u := by
          by_cases k : 2 ^ 63 ≤ value10 es
          · exact ⟨_, .exponent k⟩
          · exact ⟨_, .float (by omega)⟩
        have := expYear_says (neg := neg) hy hec hm hes hl hu
        rw [says_inj h this]
        exact .exponential yc ec hy hec neg ms es hm hes hl u hu
    | sigExponential yc ec hy hec neg ms es hm hes e hx ds hd =>
      subst he
      cases hx with
      | large hl =>
        obtain ⟨u, hu⟩ : ∃ u, ExpText es u := by
          by_cases k : 2 ^ 63 ≤ value10 es
          · exact ⟨_, .exponent k⟩
          · exact ⟨_, .float (by omega)⟩
        have := expSig_says (neg := neg) hy hec hm hes hl hd hu
        rw [says_inj h this]
        exact .sigExponential yc ec hy hec neg ms es hm hes hl ds hd u hu
    | setLeast o c ho hc cs hs a ha hl h0 e hd =>
      subst he
      obtain ⟨u, hu⟩ := dateText_of_fails hd
      obtain ⟨a', b, ⟨ha', hb, hl'⟩, k⟩ := set_says ho hc hs h
      obtain rfl : a = a' := textLe_antisymm (hl a' ha') (hl' a ha).1
      rcases k with k | ⟨k, -⟩
      · exact .setLeast o c ho hc cs hs a ha hl h0 t k
      · exact absurd (k.imp id .inr) (dateText_ne hu)
    | setGreatest o c ho hc cs hs a b ha hb hl h0 e hd =>
      subst he
      obtain ⟨a', b', ⟨ha', hb', hl'⟩, k⟩ := set_says ho hc hs h
      obtain rfl : a = a' := textLe_antisymm (hl a' ha').1 (hl' a ha).1
      obtain rfl : b = b' := textLe_antisymm (hl' b hb).2 (hl b' hb').2
      rcases k with k | ⟨-, k⟩
      · exact absurd (h0.imp id .inr) (dateText_ne k)
      · exact .setGreatest o c ho hc cs hs a b ha hb hl h0 t k
    | _ => exact absurd he (by nofun)
  · intro h
    cases h with
    | single s t hs h1 h2 hn hd =>
      obtain ⟨u, hu⟩ := fails_says (.single s _ hs h1 h2 hn (dateText_fails hd))
      rw [hu, dateText_unique (single_says h2 h1 hd hu) hd]
    | time s t h =>
      obtain ⟨h1, h2⟩ := time_says_iff.2 h
      rw [time_dispatch ((C58_time s).1 h1), h2]
    | left a b t hs ha hd =>
      obtain ⟨u, hu⟩ := fails_says (.left a b _ hs ha (dateText_fails hd))
      rcases interval_says (hs.imp id .inl) ha hu with k | ⟨k, -⟩
      · rw [hu, dateText_unique k hd]
      · exact absurd k (dateText_ne hd)
    | right a b t hs ha h1 hd =>
      obtain ⟨u, hu⟩ := fails_says (.right a b _ hs ha h1 (dateText_fails hd))
      rcases interval_says hs ha hu with k | ⟨-, k⟩
      · exact absurd h1 (dateText_ne k)
      · rw [hu, dateText_unique k hd]
    | lastWinter => decide +kernel
    | lastWinterName w t1 t2 hw h1 h2 =>
      obtain ⟨u, hu⟩ := fails_says (.lastWinterName w t1 t2 hw h1 h2)
      rw [hu, name_dispatch hw h1 h2 hu]
    | exponential yc ec hy he neg ms es hm hes hl t ht => exact expYear_says hy he hm hes hl ht
    | sigExponential yc ec hy he neg ms es hm hes hl ds hd t ht => exact expSig_says hy he hm hes hl hd ht
    | setLeast o c ho hc cs hs a ha hl h0 t hd =>
      obtain ⟨u, hu⟩ := fails_says (.setLeast o c ho hc cs hs a ha hl h0 _ (dateText_fails hd))
      obtain ⟨a', b, ⟨ha', hb, hl'⟩, k⟩ := set_says ho hc hs hu
      obtain rfl : a = a' := textLe_antisymm (hl a' ha') (hl' a ha).1
      rcases k with k | ⟨k, -⟩
      · rw [hu, dateText_unique k hd]
      · exact absurd (k.imp id .inr) (dateText_ne hd)
    | setGreatest o c ho hc cs hs a b ha hb hl h0 t hd =>
      obtain ⟨u, hu⟩ := fails_says (.setGreatest o c ho hc cs hs a b ha hb hl h0 _ (dateText_fails hd))
      obtain ⟨a', b', ⟨ha', hb', hl'⟩, k⟩ := set_says ho hc hs hu
      obtain rfl : a = a' := textLe_antisymm (hl a' ha').1 (hl' a ha).1
      obtain rfl : b = b' := textLe_antisymm (hl' b hb).2 (hl b' hb').2
      rcases k with k | ⟨-, k⟩
      · exact absurd (h0.imp id .inr) (dateText_ne k)
      · rw [hu, dateText_unique k hd]

example : Explains (c! "1X85") (c! "strconv.Atoi: parsing \"1X85\": invalid syntax") := (C79_plain _ _).1 (by decide +kernel)
example : Explains (c! "[1985-04-31,1986]") (c! "Invalid days for month") := (C79_plain _ _).1 (by decide +kernel)
example : Explains (c! "1985/1986-0X-31") (c! "Invalid days for month") → False := fun h => by
  have := (C79_plain _ _).2 h
  revert this
  decide +kernel
example : parseStringM (c! "Y1E9223372036854775808") = .says (c! "strconv.ParseInt: parsing \"9223372036854775808\": value out of range") :=
  (C79_plain _ _).2 (.exponential 'Y' 'E' (by decide) (by decide) false [1] [9,2,2,3,3,7,2,0,3,6,8,5,4,7,7,5,8,0,8]
    ⟨by simp, by simp⟩ ⟨by simp, by simp⟩ (.inl (by decide)) _ (.exponent (by decide)))
example : parseStringM (c! "Winter, 9999") = .says (c! "parsing time \"10000-03-01\" as \"2006-01-02\": cannot parse \"0-03-01\" as \"-\"") := by
  decide +kernel

theorem known_text {e : Err} {t : Str} : KnownText e t ↔ e.text = some t ∧ e ≠ .notSet := by
  constructor
  · rintro (_ | _ | _ | _) <;> exact ⟨by simp [Err.text, quotedWith], nofun⟩
  · rintro ⟨h, h0⟩
    cases e with
    | notSet => exact absurd rfl h0
    | plain => cases h
    | wrapped => cases h
    | notImplemented a b => injection h with h; rw [← h]; simpa [quotedWith] using KnownText.notImplemented a b
    | invalid a b => injection h with h; rw [← h]; simpa [quotedWith] using KnownText.invalid a b
    | unsupported a b => injection h with h; rw [← h]; simpa [quotedWith] using KnownText.unsupported a b
    | unrecognized a b => injection h with h; rw [← h]; simpa [quotedWith] using KnownText.unrecognized a b

theorem fails_known {s : Str} {e : Err} (h : Fails s e) : e = .plain ∨ ∃ t, KnownText e t := by
  have := C77_labels ((C62_error s e).2 h)
  rcases this with h | ⟨l, -, h⟩
  · exact .inl h
  · cases e with
    | plain => exact .inl rfl
    | notSet => cases h
    | wrapped => cases h
    | notImplemented a b => exact .inr ⟨_, .notImplemented a b⟩
    | invalid a b => exact .inr ⟨_, .invalid a b⟩
    | unsupported a b => exact .inr ⟨_, .unsupported a b⟩
    | unrecognized a b => exact .inr ⟨_, .unrecognized a b⟩

/-- C79: the text of every error. -/
theorem C79_text (s t : Str) : (∃ f, parseStringM s = .fault f ∧ f.text = t) ↔ ErrorText s t := by
  have er : ∀ {f}, parseStringM s = .fault f → Fails s f.err := by
    intro f h
    rw [← C62_error, ← parseStringM_forget, h]
    rfl
  constructor
  · rintro ⟨⟨e, u⟩, h, rfl⟩
    have hF := er h
    rcases fails_known hF with k | ⟨t, ht⟩
    · simp only at k
      subst k
      exact .inr ((C79_plain _ _).1 h)
    · refine .inl ⟨e, hF, ?_⟩
      rcases parseStringM_fair s _ h with k | k
      · simp only at k
        subst k
        cases ht
      · simp only at k
        rw [k, (known_text.1 ht).1]
        exact ht
  · rintro (⟨e, hF, ht⟩ | h)
    · have h := (C62_error s e).2 hF
      rw [← parseStringM_forget] at h
      cases hp : parseStringM s with
      | ok a => rw [hp] at h; cases h
      | panic => rw [hp] at h; cases h
      | fault f =>
        rw [hp] at h
        injection h with h
        refine ⟨f, rfl, ?_⟩
        rcases parseStringM_fair s _ hp with k | k
        · rw [h] at k
          subst k
          cases ht
        · rw [k, h, (known_text.1 ht).1]
          rfl
    · exact ⟨_, (C79_plain _ _).2 h, rfl⟩

example : ErrorText (c! "foo") (c! "Unrecognized EDTF string 'foo' (Invalid or unsupported EDTF string)") :=
  (C79_text _ _).1 ⟨.known (.unrecognized (c! "Invalid or unsupported EDTF string") (c! "foo")), by decide +kernel, rfl⟩
example : ErrorText (c! "1985-04-31") (c! "Invalid days for month") := (C79_text _ _).1 ⟨.says _, by decide +kernel, rfl⟩

/-- C79: every error has one text. -/
theorem C79_unique {s t u : Str} (h : ErrorText s t) (k : ErrorText s u) : t = u := by
  obtain ⟨f, hf, rfl⟩ := (C79_text s t).2 h
  obtain ⟨g, hg, rfl⟩ := (C79_text s u).2 k
  rw [hf] at hg
  injection hg with hg
  rw [hg]

example : ∃ t u, ErrorText (c! "1985-13") t ∧ ErrorText (c! "1985-14") u ∧ t ≠ u :=
  ⟨_, _, (C79_text _ _).1 ⟨.known (.invalid (c! "date") (c! "1985-13")), by decide +kernel, rfl⟩,
    (C79_text _ _).1 ⟨.known (.invalid (c! "date") (c! "1985-14")), by decide +kernel, rfl⟩, by decide⟩

end EDTF
