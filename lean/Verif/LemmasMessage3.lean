/-
The texts of the errors of years with exponents, and the branches of the parser that give
a plain error.
-/
import Verif.LemmasMessage2
import Verif.PropsFail
namespace EDTF
open Spec Told

/-! ### Exponents -/

theorem bare_digits {es : List Nat} (h : ∀ d ∈ es, d < 10) : ∀ c ∈ es.map dig, bare c = true := by
  intro c hc
  have := List.all_eq_true.1 (all_dig h) c hc
  exact bare_isDX (by simp [isDX, this])

theorem digits_127 {es : List Nat} (h : ∀ d ∈ es, d < 10) : ∀ c ∈ es.map dig, c.toNat ≠ 127 := by
  intro c hc
  have := List.all_eq_true.1 (all_dig h) c hc
  exact not_127 (by simp [isDX, this])

theorem numMessage_digits {s : Str} (b : Nat) (h : s.all isDig = true) (h0 : s ≠ []) : numMessage b s = c! "value out of range" := by
  obtain ⟨c, t, rfl⟩ := List.exists_cons_of_ne_nil h0
  have hc : isDig c = true := List.all_eq_true.1 h c (by simp)
  have hc' : c ≠ '-' ∧ c ≠ '+' := ⟨isDig_ne hc (by decide), isDig_ne hc (by decide)⟩
  unfold numMessage
  split
  · rename_i e; injection e with e _; exact absurd e hc'.1
  · rename_i e; injection e with e _; exact absurd e hc'.2
  · simp only [h]; simp

theorem ite_says {p : Prop} [Decidable p] {v : Int} {e : Err} {t : Str} (he : e ≠ .plain) :
    (if p then Told.fault (.known e) else Told.ok v) ≠ .says t := by
  intro h
  split at h
  · injection h with h; injection h with h _; exact he h
  · injection h

/-- What the error of an exponent says. -/
theorem expM_says {neg : Bool} {ec : Char} (hec : ec = 'E' ∨ ec = 'e') {ms es : List Nat} (hm : Digits ms) (he : Digits es) {t : Str}
    (h : parseExponentialNotationM (sgn neg (ms.map dig ++ ec :: es.map dig)) = .says t) : ExpText es t := by
  have am := all_dig hm.2
  have ae := all_dig he.2
  have m0 : ms.map dig ≠ [] := by simpa using hm.1
  have e0 : es.map dig ≠ [] := by simpa using he.1
  have hv := digitsVal_map es he.2
  have key : ∀ (nb : Bool) (nt : Str), (match splitE (ms.map dig ++ ec :: es.map dig) with
      | none => Told.says []
      | some (ms, es) =>
        if ms.isEmpty || !ms.all isDig || es.isEmpty || !es.all isDig then Told.says []
        else do
          let e ← parseIntM 64 es
          match BF.ofExp (digitsVal ms) e.toNat with
          | none => Told.says (c! "exponent overflow")
          | some .inf => Told.panic
          | some (.fin m x) =>
            let v := wrap64 (BF.low64 m x)
            let v := if nb then wrap64 (-v) else v
            if v > MAX_YEARS ∨ v < 0 - MAX_YEARS then
              Told.fault (.known (Unsupported (c! "exponential notation") nt))
            else Told.ok v) = .says t → ExpText es t := by
    intro nb nt
    rw [splitE_append hec am]
    simp only
    have i1 : (ms.map dig).isEmpty = false := by cases hh : ms.map dig with | nil => exact absurd hh m0 | cons => rfl
    have i2 : (es.map dig).isEmpty = false := by cases hh : es.map dig with | nil => exact absurd hh e0 | cons => rfl
    have hp : parseInt 64 (es.map dig) = if digitsVal (es.map dig) < 2 ^ 63 then some (digitsVal (es.map dig) : Int) else none := parseInt_digits 64 ae e0
    rw [i1, i2, am, ae, if_neg (by decide)]
    unfold parseIntM
    rw [hp, hv]
    by_cases h63 : value10 es < 2 ^ 63
    · rw [if_pos h63]
      simp only [ok_bindM]
      intro k
      split at k
      · injection k with k; injection k with _ k; rw [← k]; exact .float h63
      · cases k
      · exact absurd k (ite_says (by unfold Unsupported; nofun))
    · rw [if_neg h63]
      intro k
      injection k with k; injection k with _ k
      rw [← k]
      unfold numError
      rw [quoteGo_bare (fun c hc => ⟨bare_digits he.2 c hc, digits_127 he.2 c hc⟩), numMessage_digits 64 ae e0]
      rw [List.append_assoc _ (c! ": ") _]
      exact .exponent (es := es) (by omega)
  unfold parseExponentialNotationM at h
  cases neg
  · obtain ⟨c, w, hw⟩ := List.exists_cons_of_ne_nil m0
    have hc : isDig c = true := List.all_eq_true.1 am c (by rw [hw]; simp)
    have hc' : c ∈ ['0', '1', '2', '3', '4', '5', '6', '7', '8', '9'] := by
      obtain ⟨k, hk, rfl⟩ := (isDig_iff c).1 hc
      have : ∀ k, k < 10 → dig k ∈ ['0', '1', '2', '3', '4', '5', '6', '7', '8', '9'] := by decide
      exact this k hk
    simp only [List.mem_cons, List.not_mem_nil, or_false] at hc'
    rw [hw] at key h
    rcases hc' with rfl | rfl | rfl | rfl | rfl | rfl | rfl | rfl | rfl | rfl <;> exact key false _ h
  · exact key true _ h

theorem expText_unique {es : List Nat} {t u : Str} (h : ExpText es t) (k : ExpText es u) : t = u := by
  cases h <;> cases k <;> first | rfl | omega

theorem tooLarge_says {neg : Bool} {ec : Char} (hec : ec = 'E' ∨ ec = 'e') {ms es : List Nat} (hm : Digits ms) (he : Digits es) (h : TooLarge ms es)
    {t : Str} (ht : ExpText es t) : parseExponentialNotationM (sgn neg (ms.map dig ++ ec :: es.map dig)) = .says t := by
  have h1 := (exp_err_iff neg hec hm he).2 (.large h)
  rw [← parseExponentialNotationM_forget] at h1
  obtain ⟨u, hu⟩ := plain_says h1
  rw [hu, expText_unique (expM_says hec hm he hu) ht]

theorem parseM_level2 {s : Str} (h0 : L0.isLevel0 s = false) (h1 : L1.isLevel1 s = false) (h2 : L2.isLevel2 s = true) :
    parseStringM s = L2.parseStringM s := by
  unfold parseStringM; rw [h0, h1, h2]; rfl

theorem expYear_says {yc ec : Char} (hy : yc ∈ c! "Yy") (he : ec ∈ c! "Ee") {neg : Bool} {ms es : List Nat} (hm : Digits ms) (hes : Digits es)
    (h : TooLarge ms es) {t : Str} (ht : ExpText es t) : parseStringM (yc :: signed neg (ms.map dig ++ ec :: es.map dig)) = .says t := by
  have hyc := mem_Yy.1 hy
  have hec := mem_Ee.1 he
  have am := all_dig hm.2
  have ae := all_dig hes.2
  have m0 : ms.map dig ≠ [] := by simpa using hm.1
  have e0 : es.map dig ≠ [] := by simpa using hes.1
  show parseStringM (yc :: sgn neg (ms.map dig ++ ec :: es.map dig)) = _
  obtain ⟨h0, h1⟩ := exp_level01 hyc hec (neg := neg) (ms := ms.map dig) (es := es.map dig) []
  rw [List.append_nil] at h0 h1
  have hx := isExponential_iff.2 (exp_lang (neg := neg) hyc hec am m0 ae e0)
  rw [parseM_level2 h0 h1 (isLevel2_of (Or.inl hx))]
  unfold L2.parseStringM
  rw [hx, if_pos rfl]
  unfold L2.parseExponentialYearM
  have hsome : (Rx.ExponentialYear.submatch (yc :: sgn neg (ms.map dig ++ ec :: es.map dig))).isSome = true := by rw [isSome_submatch]; exact hx
  obtain ⟨m, em⟩ := Option.isSome_iff_exists.1 hsome
  rw [em]
  obtain ⟨c, -, e, -⟩ := exponential_caps em
  injection e with _ e
  simp only [← e]
  rw [tooLarge_says hec hm hes h ht]
  rfl

theorem expSig_says {yc ec : Char} (hy : yc ∈ c! "Yy") (he : ec ∈ c! "Ee") {neg : Bool} {ms es : List Nat} (hm : Digits ms) (hes : Digits es)
    (h : TooLarge ms es) {ds : List Nat} (hd : Digits ds) {t : Str} (ht : ExpText es t) :
    parseStringM (yc :: (signed neg (ms.map dig ++ ec :: es.map dig) ++ 'S' :: ds.map dig)) = .says t := by
  have hyc := mem_Yy.1 hy
  have hec := mem_Ee.1 he
  have am := all_dig hm.2
  have ae := all_dig hes.2
  have ad := all_dig hd.2
  have m0 : ms.map dig ≠ [] := by simpa using hm.1
  have e0 : es.map dig ≠ [] := by simpa using hes.1
  have d0 : ds.map dig ≠ [] := by simpa using hd.1
  show parseStringM (yc :: (sgn neg (ms.map dig ++ ec :: es.map dig) ++ 'S' :: ds.map dig)) = _
  have hs : L2.isSignificantDigits (yc :: (sgn neg (ms.map dig ++ ec :: es.map dig) ++ 'S' :: ds.map dig)) = true :=
    isSig_iff.2 (lang_cat.2 ⟨yc :: sgn neg (ms.map dig ++ ec :: es.map dig), _, rfl, Or.inr (Or.inr (exp_lang hyc hec am m0 ae e0)),
      lang_cat.2 ⟨['S'], ds.map dig, rfl, lang_lit.2 rfl, lang_plusDigit.2 ⟨ad, d0⟩⟩⟩)
  obtain ⟨p0, p1⟩ := prefixed_level01 hyc (t := sgn neg (ms.map dig ++ ec :: es.map dig) ++ 'S' :: ds.map dig) (by simp)
  obtain ⟨m, hm', m1, m2, m3, m4, -⟩ := exp_sig (neg := neg) hyc hec am m0 ae e0 ad d0
  have hne2 : sgn neg (ms.map dig ++ ec :: es.map dig) ≠ [] := by cases neg <;> simp [sgn]
  rw [parseM_level2 p0 p1 (isLevel2_of (Or.inr (Or.inl hs)))]
  unfold L2.parseStringM
  rw [s_not_exponential (by simp), hs, if_neg (by decide), if_pos rfl]
  unfold L2.parseSignificantDigitsM
  rw [hm']
  simp only
  unfold L2.sigYearM
  rw [m1, m2, m3, if_neg (by simp), if_neg (by simp), if_pos hne2, tooLarge_says hec hm hes h ht]
  rfl

/-! ### The branches of the parser -/

theorem whole_says {b : Bool} {s : Str} {l : Int} {f t : Str} (h : parseWholeM b s l f = .says t) : dateSpanFromEDTFM s = .says t := by
  unfold parseWholeM at h
  split at h
  · cases h
  · rcases bind_says.1 h with h | ⟨a, -, h⟩
    · exact h
    · cases h

/-- The ways to a plain error. -/
theorem says_cases {s t : Str} (h : parseStringM s = .says t) :
    (L0.isDateAndTime s = true) ∨
    (L1.isLevel1 s = true ∧ L1.isLetterPrefixedCalendarYear s = true) ∨
    (L1.isLevel1 s = true ∧ L1.isSeason s = true ∧ L1.parseSeasonM s = .says t) ∨
    L2.isExponentialYear s = true ∨
    L2.isSignificantDigits s = true ∨
    L2.isSubYearGrouping s = true ∨
    L2.isSetRepresentation s = true ∨
    dateSpanFromEDTFM s = .says t := by
  unfold parseStringM at h
  split at h
  · unfold L0.parseStringM L0.parseDateM L0.parseTimeIntervalM at h
    repeat' split at h
    · simp only [whole_says h, or_true]
    · simp only [*, true_or]
    · simp only [whole_says h, or_true]
    · cases h
  · split at h
    · next h1 =>
      unfold L1.parseStringM L1.parseQualifiedDateM L1.parseUnspecifiedDigitsM L1.parseNegativeCalendarYearM L1.parseExtendedIntervalM at h
      repeat' split at h
      · exact .inr (.inl ⟨h1, by assumption⟩)
      · exact .inr (.inr (.inl ⟨h1, by assumption, h⟩))
      · simp only [whole_says h, or_true]
      · simp only [whole_says h, or_true]
      · simp only [whole_says h, or_true]
      · simp only [whole_says h, or_true]
      · simp only [whole_says h, or_true]
      · cases h
      · cases h
    · split at h
      · unfold L2.parseStringM L2.parseGroupQualificationM L2.parseIndividualQualificationM L2.parseUnspecifiedDigitM L2.parseIntervalM at h
        repeat' split at h
        · simp only [*, true_or, or_true]
        · simp only [*, true_or, or_true]
        · simp only [*, true_or, or_true]
        · simp only [*, true_or, or_true]
        · simp only [whole_says h, or_true]
        · simp only [whole_says h, or_true]
        · simp only [whole_says h, or_true]
        · simp only [whole_says h, or_true]
        · cases h
      · split at h
        · cases h
        · split at h <;> cases h

/-! ### Intervals -/

theorem half_says {w t : Str} (h : halfSpanM w = .says t) : DateText w t := by
  unfold halfSpanM at h
  split at h
  · cases h
  · split at h
    · cases h
    · exact date_says_iff.1 h

theorem join_says {a b : DateSpan} {t : Str} : Told.lift (joinHalves a b) ≠ .says t := by
  intro h
  have := lift_says h
  unfold joinHalves at this
  rcases a with ⟨_ | _, _ | _⟩ <;> rcases b with ⟨_ | _, _ | _⟩ <;> cases this

theorem spanM_noSlash {s : Str} (h : '/' ∉ s) : dateSpanFromEDTFM s = dateSpanFromYMDM s := by
  unfold dateSpanFromEDTFM
  rw [splitChar_none h]

theorem spanM_slash {a b : Str} (ha : '/' ∉ a) (hb : '/' ∉ b) :
    dateSpanFromEDTFM (a ++ '/' :: b) = (do let l ← halfSpanM a; let r ← halfSpanM b; Told.lift (joinHalves l r)) := by
  unfold dateSpanFromEDTFM
  rw [splitChar_append ha, splitChar_none hb]

end EDTF
