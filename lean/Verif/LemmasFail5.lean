/-
The errors and panics of exponential years and of significant digits.
-/
import Verif.LemmasFail4
namespace EDTF
open Spec

/-! ### Exponential years -/

theorem itoa_sgn (v : Int) : itoa v = sgn (decide (v < 0)) (natDigits v.natAbs) := by
  unfold itoa
  by_cases h : v < 0
  · simp [h, sgn]
  · simp [h, sgn]

theorem sgn_noSlash {b : Bool} {x : Str} (hx : x.all isDig = true) : '/' ∉ sgn b x := by
  intro h
  have : '/' ∈ x := by
    cases b
    · exact h
    · rcases List.mem_cons.1 h with h | h
      · exact absurd h (by decide)
      · exact h
  exact absurd (List.all_eq_true.1 hx _ this) (by decide)

theorem itoa_short_err {v : Int} (h : v.natAbs < 1000) : dateSpanFromEDTF (itoa v) = .err (.invalid (c! "date") (itoa v)) := by
  have hl := (natDigits_length_le (n := v.natAbs) (k := 3) (by decide)).2 h
  rw [itoa_sgn, dateSpanFromEDTF_noSlash (sgn_noSlash (natDigits_all _))]
  have := (halfSpan_digits (t := []) (decide (v < 0)) (natDigits_all v.natAbs) (natDigits_ne_nil _) (by omega) (Or.inl rfl)).2
  rw [List.append_nil] at this
  exact this

theorem expReads_range {neg : Bool} {ms es : List Nat} {v : Int} (h : ExpReads neg ms es v) : v.natAbs < 10000 := by
  have h1 := h.2.2.2.1
  have h2 := h.2.2.2.2.1
  omega

/-- The parser on an exponential year, by what the notation gives. -/
theorem exp_year {yc ec : Char} (hy : yc ∈ c! "Yy") (he : ec ∈ c! "Ee") (neg : Bool) {ms es : List Nat} (hm : Digits ms) (hes : Digits es) :
    parseString (yc :: signed neg (ms.map dig ++ ec :: es.map dig)) = (do
      let yyyy ← parseExponentialNotation (sgn neg (ms.map dig ++ ec :: es.map dig))
      let sp ← dateSpanFromEDTF (itoa yyyy)
      .ok (mkEDTF sp (yc :: sgn neg (ms.map dig ++ ec :: es.map dig)) 2 (c! "Exponential year"))) :=
  parse_exp' (mem_Yy.1 hy) (mem_Ee.1 he) (all_dig hm.2) (by simpa using hm.1) (all_dig hes.2) (by simpa using hes.1)

theorem exp_year_fails {yc ec : Char} (hy : yc ∈ c! "Yy") (he : ec ∈ c! "Ee") {neg : Bool} {ms es : List Nat} (hm : Digits ms) (hes : Digits es) {e : Err}
    (h : ExpFails neg ms es (signed neg (ms.map dig ++ ec :: es.map dig)) e) :
    parseString (yc :: signed neg (ms.map dig ++ ec :: es.map dig)) = .err e := by
  rw [exp_year hy he neg hm hes, (exp_err_iff neg (mem_Ee.1 he) hm hes).2 h]
  rfl

theorem exp_year_short {yc ec : Char} (hy : yc ∈ c! "Yy") (he : ec ∈ c! "Ee") {neg : Bool} {ms es : List Nat} (hm : Digits ms) (hes : Digits es) {v : Int}
    (hv : ExpReads neg ms es v) (h : v.natAbs < 1000) :
    parseString (yc :: signed neg (ms.map dig ++ ec :: es.map dig)) = .err (.invalid (c! "date") (itoa v)) := by
  rw [exp_year hy he neg hm hes, (exp_ok_iff neg (mem_Ee.1 he) hm hes).2 hv, Res.ok_bind, itoa_short_err h]
  rfl

theorem exp_year_panic {yc ec : Char} (hy : yc ∈ c! "Yy") (he : ec ∈ c! "Ee") {neg : Bool} {ms es : List Nat} (hm : Digits ms) (hes : Digits es)
    (h1 : ¬ TooLarge ms es) (h2 : Overflows ms es) : parseString (yc :: signed neg (ms.map dig ++ ec :: es.map dig)) = .panic := by
  rw [exp_year hy he neg hm hes, (exp_panic_iff neg (mem_Ee.1 he) hm hes).2 ⟨h1, h2⟩]
  rfl

theorem exp_outcome (neg : Bool) {ms es : List Nat} (hm : Digits ms) (hes : Digits es) (t : Str) :
    (∃ e, ExpFails neg ms es t e) ∨ (¬ TooLarge ms es ∧ Overflows ms es) ∨ ∃ v, ExpReads neg ms es v := by
  rcases exp_cases neg (ec := 'E') (.inl rfl) hm hes with ⟨h, -⟩ | ⟨h1, h2, -⟩ | ⟨h1, h2, h3, -⟩ | ⟨w, hw, -⟩
  · exact .inl ⟨_, .large h⟩
  · exact .inr (.inl ⟨h1, h2⟩)
  · exact .inl ⟨_, .unsupported h1 h2 h3⟩
  · exact .inr (.inr ⟨w, hw⟩)

theorem fail_exponential {s : Str} (h : ExponentialForm s) :
    (∃ d, parseString s = .ok d) ∨ (∃ e, parseString s = .err e ∧ Fails s e) ∨ (parseString s = .panic ∧ Panics s) := by
  obtain ⟨yc, hy, ec, he, neg, ms, es, hm, hes, rfl⟩ := h
  rcases exp_outcome neg hm hes (signed neg (ms.map dig ++ ec :: es.map dig)) with ⟨e, h⟩ | ⟨h1, h2⟩ | ⟨v, hv⟩
  · exact .inr (.inl ⟨e, exp_year_fails hy he hm hes h, .exponential yc ec hy he neg ms es hm hes e h⟩)
  · exact .inr (.inr ⟨exp_year_panic hy he hm hes h1 h2, .infinite yc ec hy he neg ms es hm hes h1 h2⟩)
  · by_cases hs : v.natAbs < 1000
    · exact .inr (.inl ⟨_, exp_year_short hy he hm hes hv hs, .exponentialShort yc ec hy he neg ms es hm hes v hv hs _ (numeral_iff.2 rfl)⟩)
    · exact .inl ((exp_accept (mem_Yy.1 hy) (mem_Ee.1 he) neg hm hes).2 ⟨v, hv.2.2, by omega⟩)

/-! ### Significant digits -/

/-- The two years, the first of them as specified. -/
theorem sigString_edge {v : Int} {k : Nat} (hv : v.natAbs < 10000) (hk : k ≤ plainLen v) :
    ∃ b u w, u.all isDig = true ∧ w.all isDig = true ∧ u.length = max (natDigits v.natAbs).length k ∧
      sigEdge v (itoa v) k = sgn b u ∧ L2.sigString v k = .ok (sgn b u ++ '/' :: sgn b w) := by
  have hl := itoa_length hv
  have ha := natDigits_all v.natAbs
  have hne := natDigits_ne_nil v.natAbs
  generalize hD : natDigits v.natAbs = D at *
  have r0 : ∀ k, (List.replicate k '0').all isDig = true := by intro k; simp [isDig]
  have r9 : ∀ k, (List.replicate k '9').all isDig = true := by intro k; simp [isDig]
  have tk : ∀ i, (D.take i).all isDig = true := by
    intro i
    rw [List.all_eq_true] at *
    exact fun c hc => ha c (List.mem_of_mem_take hc)
  have al : ∀ i (x : Str), x.all isDig = true → (D.take i ++ x).all isDig = true := by
    intro i x hx; rw [List.all_append, tk i, hx]; rfl
  have np : ∀ x : Str, x.all isDig = true → hasPrefix x (c! "-") = false := by
    intro x hx
    cases x with
    | nil => rfl
    | cons c x =>
      have : c ≠ '-' := isDig_ne (List.all_eq_true.1 hx c (by simp)) (by decide)
      simp [hasPrefix, List.isPrefixOf, this.symm]
  unfold L2.sigString sigEdge
  simp only [hl]
  rw [if_neg (show ¬ k > plainLen v by omega)]
  rcases (by omega : 0 ≤ v ∨ v < 0) with h | h
  · have e : itoa v = D := by unfold itoa; rw [if_neg (by omega), hD]
    rw [e] at hl ⊢
    rw [← hl] at hk ⊢
    refine ⟨false, D.take (D.length - k) ++ List.replicate k '0', D.take (D.length - k) ++ List.replicate k '9', al _ _ (r0 _), al _ _ (r9 _), ?_, ?_, ?_⟩
    · simp; omega
    · rw [if_neg (by omega)]; rfl
    · rw [np _ (al _ _ (r0 _))]
      simp [sgn]
  · have e : itoa v = '-' :: D := by unfold itoa; rw [if_pos h, hD]
    rw [e] at hl ⊢
    rw [← hl] at hk ⊢
    simp only [List.length_cons] at *
    by_cases hk' : k = D.length + 1
    · refine ⟨false, List.replicate k '0', List.replicate k '9', r0 _, r9 _, ?_, ?_, ?_⟩
      · simp; omega
      · rw [if_neg (by omega), hk', Nat.sub_self]; rfl
      · rw [hk', Nat.sub_self, List.take_zero, List.nil_append, List.nil_append, np _ (r0 _)]
        simp [sgn]
    · refine ⟨true, D.take (D.length - k) ++ List.replicate k '9', D.take (D.length - k) ++ List.replicate k '0', al _ _ (r9 _), al _ _ (r0 _), ?_, ?_, ?_⟩
      · simp; omega
      · rw [if_pos (by omega), show D.length + 1 - k = (D.length - k) + 1 by omega]; rfl
      · rw [show D.length + 1 - k = (D.length - k) + 1 by omega, List.take_succ_cons]
        simp [sgn, hasPrefix, List.isPrefixOf]

theorem sigTail_short {s : Str} {v : Int} {k : Nat} (hv : v.natAbs < 10000) (hk : k ≤ plainLen v) (hs : ¬ SigFits v k) :
    sigTail s v k = .err (.invalid (c! "date") (sigEdge v (itoa v) k)) := by
  have hp := plainLen_le v
  unfold sigTail
  rw [if_neg (lt63 (by omega))]
  obtain ⟨b, u, w, hu, hw, lu, e, es⟩ := sigString_edge hv hk
  rw [es, Res.ok_bind, e]
  have l0 : (natDigits v.natAbs).length ≠ 0 := by simpa using natDigits_ne_nil v.natAbs
  have l2 := natDigits_length_le (n := v.natAbs) (k := 2) (by decide)
  have l3 := natDigits_length_le (n := v.natAbs) (k := 3) (by decide)
  have l4 := natDigits_length_le (n := v.natAbs) (k := 4) (by decide)
  have h4 : u.length ≠ 4 := by
    intro h4
    apply hs
    unfold SigFits
    have hl := itoa_length hv
    rw [itoa_sgn] at hl
    by_cases hn : v < 0
    · simp [hn, sgn] at hl
      omega
    · simp [hn, sgn] at hl
      omega
  have hne : u ≠ [] := by rintro rfl; simp at lu; omega
  have := (halfSpan_digits (t := []) b hu hne h4 (Or.inl rfl)).1
  rw [List.append_nil] at this
  rw [dateSpanFromEDTF_slash (sgn_noSlash hu) (sgn_noSlash hw), this]
  rfl

theorem sigTail_large {s : Str} {v : Int} {k : Nat} (hk : 10 ^ plainLen v ≤ k) : sigTail s v k = .err (.invalid (c! "Significant digits") s) := by
  unfold sigTail
  rw [if_pos (.inr hk)]
  rfl

/-- The parser on a year with significant digits. -/
theorem sigReads_eq {t : Str} {v : Int} (h : SigReads t v) {ds : List Nat} (hd : Digits ds) :
    v.natAbs < 10000 ∧ parseString (t ++ 'S' :: ds.map dig) = sigTail (t ++ 'S' :: ds.map dig) v (value10 ds) := by
  cases h with
  | date neg n h =>
    have := sigYear_eq (.date neg n h) hd.2 hd.1
    rw [date0_year] at this
    exact this
  | letter neg us hu hl =>
    have := sigYear_eq (.letter neg us hu.2 hu.1 (by cases neg <;> simp [signed] at hl ⊢ <;> omega)) hd.2 hd.1
    rw [← sgn_eq] at this
    exact this
  | exponential yc ec hy he neg ms es hm hes v hv =>
    have hval := (exp_ok_iff neg (mem_Ee.1 he) hm hes).2 hv
    have hr := expReads_range hv
    refine ⟨hr, ?_⟩
    have hD := all_dig hd.2
    have hN : ds.map dig ≠ [] := by simpa using hd.1
    rw [List.cons_append]
    obtain ⟨m, hm', m1, m2, m3, m4, hp⟩ := exp_sig (neg := neg) (mem_Yy.1 hy) (mem_Ee.1 he) (all_dig hm.2) (by simpa using hm.1) (all_dig hes.2)
      (by simpa using hes.1) hD hN
    refine hp.trans ?_
    have e := sig_core hm' (v := v) hr ?_ (by rw [m4]; exact hD) (by rw [m4]; exact hN)
    · rw [m4, digitsVal_map ds hd.2] at e; exact e
    · have hne2 : sgn neg (ms.map dig ++ ec :: es.map dig) ≠ [] := by cases neg <;> simp [sgn]
      unfold L2.sigYear
      rw [m1, m2, m3, if_neg (by simp), if_neg (by simp), if_pos hne2, hval]

/-- An exponential year before the `S` that cannot be read. -/
theorem sig_exp {yc ec : Char} (hy : yc ∈ c! "Yy") (he : ec ∈ c! "Ee") {neg : Bool} {ms es : List Nat} (hm : Digits ms) (hes : Digits es)
    {ds : List Nat} (hd : Digits ds) (hn : ∀ v, parseExponentialNotation (sgn neg (ms.map dig ++ ec :: es.map dig)) ≠ .ok v) :
    (∀ e, parseExponentialNotation (sgn neg (ms.map dig ++ ec :: es.map dig)) = .err e →
      parseString (yc :: (signed neg (ms.map dig ++ ec :: es.map dig) ++ 'S' :: ds.map dig)) = .err e) ∧
    (parseExponentialNotation (sgn neg (ms.map dig ++ ec :: es.map dig)) = .panic →
      parseString (yc :: (signed neg (ms.map dig ++ ec :: es.map dig) ++ 'S' :: ds.map dig)) = .panic) := by
  obtain ⟨m, hm', m1, m2, m3, m4, hp⟩ := exp_sig (neg := neg) (mem_Yy.1 hy) (mem_Ee.1 he) (all_dig hm.2) (by simpa using hm.1) (all_dig hes.2)
    (by simpa using hes.1) (all_dig hd.2) (by simpa using hd.1)
  have hp' : parseString (yc :: (signed neg (ms.map dig ++ ec :: es.map dig) ++ 'S' :: ds.map dig)) =
      L2.parseSignificantDigits (yc :: (sgn neg (ms.map dig ++ ec :: es.map dig) ++ 'S' :: ds.map dig)) := hp
  have hne2 : sgn neg (ms.map dig ++ ec :: es.map dig) ≠ [] := by cases neg <;> simp [sgn]
  rw [hp']
  unfold L2.parseSignificantDigits
  rw [hm']
  simp only
  unfold L2.sigYear
  rw [m1, m2, m3, if_neg (by simp), if_neg (by simp), if_pos hne2]
  constructor
  · intro e h; rw [h]; rfl
  · intro h; rw [h]; rfl

theorem sig_exp_fails {yc ec : Char} (hy : yc ∈ c! "Yy") (he : ec ∈ c! "Ee") {neg : Bool} {ms es : List Nat} (hm : Digits ms) (hes : Digits es) {e : Err}
    (h : ExpFails neg ms es (signed neg (ms.map dig ++ ec :: es.map dig)) e) {ds : List Nat} (hd : Digits ds) :
    parseString (yc :: (signed neg (ms.map dig ++ ec :: es.map dig) ++ 'S' :: ds.map dig)) = .err e := by
  have := (exp_err_iff neg (mem_Ee.1 he) hm hes).2 h
  exact (sig_exp hy he hm hes hd (by rw [this]; nofun)).1 e this

theorem sig_exp_panic {yc ec : Char} (hy : yc ∈ c! "Yy") (he : ec ∈ c! "Ee") {neg : Bool} {ms es : List Nat} (hm : Digits ms) (hes : Digits es)
    (h1 : ¬ TooLarge ms es) (h2 : Overflows ms es) {ds : List Nat} (hd : Digits ds) :
    parseString (yc :: (signed neg (ms.map dig ++ ec :: es.map dig) ++ 'S' :: ds.map dig)) = .panic := by
  have := (exp_panic_iff neg (mem_Ee.1 he) hm hes).2 ⟨h1, h2⟩
  exact (sig_exp hy he hm hes hd (by rw [this]; nofun)).2 this

theorem sig_letter_long {neg : Bool} {us : List Nat} (hu : Digits us) (hl : 4 < (signed neg (us.map dig)).length) {ds : List Nat} (hd : Digits ds) :
    parseString ('Y' :: (signed neg (us.map dig) ++ 'S' :: ds.map dig)) =
      .err (.unsupported (c! "Significant digits") ('Y' :: (signed neg (us.map dig) ++ 'S' :: ds.map dig))) := by
  obtain ⟨m, hm, m1, m2, m3, m4, hp⟩ := letter_sig (neg := neg) (all_dig hu.2) (by simpa using hu.1) (all_dig hd.2) (by simpa using hd.1)
  have hp' : parseString ('Y' :: (signed neg (us.map dig) ++ 'S' :: ds.map dig)) =
      L2.parseSignificantDigits ('Y' :: (sgn neg (us.map dig) ++ 'S' :: ds.map dig)) := hp
  rw [hp']
  unfold L2.parseSignificantDigits
  rw [hm]
  simp only
  unfold L2.sigYear
  rw [m1, m2, m3, if_neg (by simp), if_pos (by intro h; rw [show signed neg (us.map dig) = [] from h] at hl; exact absurd hl (by decide)),
    if_pos (show (sgn neg (us.map dig)).length > 4 from hl)]
  rfl

theorem fail_reads {t : Str} {v : Int} (h : SigReads t v) {ds : List Nat} (hd : Digits ds) :
    (∃ d, parseString (t ++ 'S' :: ds.map dig) = .ok d) ∨ (∃ e, parseString (t ++ 'S' :: ds.map dig) = .err e ∧ Fails (t ++ 'S' :: ds.map dig) e) ∨
      (parseString (t ++ 'S' :: ds.map dig) = .panic ∧ Panics (t ++ 'S' :: ds.map dig)) := by
  obtain ⟨hv, e⟩ := sigReads_eq h hd
  rw [e]
  have hl := itoa_length hv
  by_cases h1 : 10 ^ plainLen v ≤ value10 ds
  · exact .inr (.inl ⟨_, sigTail_large h1, .sigLarge t v h _ (numeral_iff.2 rfl) ds hd (by rw [hl]; exact h1)⟩)
  by_cases h2 : plainLen v < value10 ds
  · exact .inr (.inr ⟨(sigTail_panic hv).2 ⟨h2, by omega⟩, .digits t v h _ (numeral_iff.2 rfl) ds hd (by rw [hl]; exact h2) (by rw [hl]; omega)⟩)
  by_cases h3 : SigFits v (value10 ds)
  · exact .inl ((sigTail_iff hv).2 h3)
  · exact .inr (.inl ⟨_, sigTail_short hv (by omega) h3, .sigShort t v h _ (numeral_iff.2 rfl) ds hd (by rw [hl]; omega) h3⟩)

theorem fail_significant {s : Str} (h : SignificantForm (c! "Y") (c! "S") s) :
    (∃ d, parseString s = .ok d) ∨ (∃ e, parseString s = .err e ∧ Fails s e) ∨ (parseString s = .panic ∧ Panics s) := by
  obtain ⟨u, hu, c, hc, ds, hd, rfl⟩ := h
  obtain rfl : c = 'S' := by simpa using hc
  rcases hu with ⟨neg, n, hn, rfl⟩ | ⟨y, hy, neg, us, hus, rfl⟩ | ⟨yc, hy, ec, he, neg, ms, es, hm, hes, rfl⟩
  · exact fail_reads (.date neg n hn) hd
  · obtain rfl : y = 'Y' := by simpa using hy
    by_cases hl : (signed neg (us.map dig)).length ≤ 4
    · exact fail_reads (.letter neg us hus hl) hd
    · exact .inr (.inl ⟨_, sig_letter_long hus (by omega) hd, .sigLetter neg us hus (by omega) ds hd⟩)
  · rcases exp_outcome neg hm hes (signed neg (ms.map dig ++ ec :: es.map dig)) with ⟨e, h⟩ | ⟨h1, h2⟩ | ⟨v, hv⟩
    · exact .inr (.inl ⟨e, sig_exp_fails hy he hm hes h hd, .sigExponential yc ec hy he neg ms es hm hes e h ds hd⟩)
    · exact .inr (.inr ⟨sig_exp_panic hy he hm hes h1 h2 hd, .infiniteSig yc ec hy he neg ms es hm hes h1 h2 ds hd⟩)
    · exact fail_reads (.exponential yc ec hy he neg ms es hm hes v hv) hd

end EDTF
