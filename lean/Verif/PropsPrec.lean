import Verif.PropsX

/-!
# C46: the reported precision
-/

namespace EDTF
open Spec

namespace Spec

/-- All four dates of the result report precision `p`. -/
def AllPrec (r : EDTFDate) (p : Prec) : Prop :=
  ∃ a b c d : Date, r.start.bind (·.lower) = some a ∧ r.start.bind (·.upper) = some b ∧ r.stop.bind (·.lower) = some c ∧ r.stop.bind (·.upper) = some d ∧
    a.precision = p ∧ b.precision = p ∧ c.precision = p ∧ d.precision = p

/-- The unit a year is given to: the last unspecified digits tell. -/
def yearUnit (b c : Char) : Prec := if c ≠ 'X' then Prec.DECADE else if b ≠ 'X' then Prec.CENTURY else Prec.MILLENIUM

end Spec

variable {f : Int → Nat → Nat → Int}

theorem allPrec_unique {r : EDTFDate} {p q : Prec} (h1 : AllPrec r p) (h2 : AllPrec r q) : p = q := by
  obtain ⟨a, b, c, d, e, -, -, -, rfl, -⟩ := h1
  obtain ⟨a', b', c', d', e', -, -, -, rfl, -⟩ := h2
  rw [e] at e'
  injection e' with e'
  rw [e']

theorem date0_prec {x : Date0} (h : x.ok) : ∃ r, parseString x.text = .ok r ∧ AllPrec r Prec.YEAR := by
  refine ⟨_, parse_date0 dayCount_unixDay h, _, _, _, _, rfl, rfl, rfl, rfl, rfl, ?_, ?_, rfl⟩
  · split <;> rfl
  · split <;> rfl

theorem spanRec_prec (e : Str) (y1 : Int) (m1 d1 : Nat) (y2 : Int) (m2 d2 : Nat) (same : Bool) (u a p : Prec) (s : Str) (l : Int) (ft : Str) :
    AllPrec (mkEDTF (spanRec e y1 m1 d1 y2 m2 d2 same u a p) s l ft) p := by
  refine ⟨_, _, _, _, rfl, rfl, rfl, rfl, rfl, ?_, ?_, rfl⟩
  · cases same <;> rfl
  · cases same <;> rfl

theorem monthsResult_prec (s : Str) (l : Int) (ft : Str) (y1 : Int) (m1 : Nat) (y2 : Int) (m2 : Nat) :
    AllPrec (monthsResult f s l ft y1 m1 y2 m2) Prec.YEAR :=
  ⟨_, _, _, _, rfl, rfl, rfl, rfl, rfl, rfl, rfl, rfl⟩

/-- C46 for years: a year in digits has precision YEAR. -/
theorem C46_year (neg : Bool) {n : Nat} (hn : n < 10000) :
    ∃ r, parseString (if neg then '-' :: pad4 n else pad4 n) = .ok r ∧ AllPrec r Prec.YEAR := by
  have h := date0_prec (x := ⟨neg, n, .none⟩) ⟨hn, trivial⟩
  have e : (⟨neg, n, .none⟩ : Date0).text = (if neg then '-' :: pad4 n else pad4 n) := by
    simp [date0_text, yearStr, sgn]
  rwa [e] at h

example : ∃ r, parseString (c! "1985") = .ok r ∧ AllPrec r Prec.YEAR := C46_year false (n := 1985) (by decide)

/-- C46 for years with unspecified digits: DECADE, CENTURY or MILLENIUM. -/
theorem C46_unspecified_year {a b c : Char} (ha : ∃ k, k < 10 ∧ a = dig k) (hb : XDigit b) (hc : XDigit c) :
    ∃ r, parseString [a, b, c, 'X'] = .ok r ∧ r.level = 1 ∧ AllPrec r (yearUnit b c) := by
  have ha' : isDig a = true := (isDig_iff a).2 ha
  have hb' := xdigit_iff.1 hb
  have hc' := xdigit_iff.1 hc
  have hx : (⟨false, [a, b, c, 'X'], .none⟩ : XDate).ok := by
    refine ⟨rfl, ?_, trivial⟩
    intro k hk
    simp only [List.mem_cons, List.not_mem_nil, or_false] at hk
    rcases hk with rfl | rfl | rfl | rfl
    · exact Or.inr ha
    · exact hb
    · exact hc
    · exact Or.inl rfl
  have hX : 'X' ∈ [a, b, c, 'X'] := by simp
  have hdash : '-' ∉ [a, b, c, 'X'] := dx_not_mem (xall hx.2.1) (by decide)
  have nm : ∀ k, isDX k = false → k ∉ [a, b, c, 'X'] := fun k hk => dx_not_mem (xall hx.2.1) hk
  have hL : Lang (Rx.unspecifiedDigits 1) [a, b, c, 'X'] := by
    refine ⟨[a, b, c, 'X'], [], rfl, (lang_rep4 (fun w => lang_digX (w := w))).2 ⟨_, _, _, _, rfl, ?_, hb', hc', by decide⟩, Or.inl rfl⟩
    unfold isDX; rw [ha']; rfl
  have h1 : L1.isLevel1 [a, b, c, 'X'] = true := by
    rw [isLevel1_iff]
    exact Or.inr (Or.inr (Or.inr (Or.inr (Or.inl (lang_ci_mono _ (by decide) hL)))))
  have hs : ¬ L1.isSeason [a, b, c, 'X'] = true := by
    intro h
    rcases (C49_exact_partial _).1 h with ⟨neg, n, m, rest, hn, hm, e⟩ | ⟨pre, w, t1, t2, z, n, -, -, -, -, e⟩
    · exact hdash (by rw [e]; simp)
    · exact nm ',' (by decide) (by rw [e]; simp)
  have hF : (YMDForm.y ⟨[a, b, c, 'X'], .none⟩).ok := by
    refine ⟨rfl, lang_yearX.2 ⟨false, a, b, c, 'X', rfl, ?_, hb', hc', by decide⟩⟩
    unfold isDX; rw [ha']; rfl
  have hlb := loD_le b hb'
  have hlc := loD_le c hc'
  have hla := digVal_lt ha'
  have hsp := dateSpan_form hF (YearSpan.x a b c ha' hb' hc') MonthSpan.none (DaySpan.none _ _) (valid_first (by decide) (by decide)) (valid_last (by decide) (by decide))
  have hsp : dateSpanFromYMD [a, b, c, 'X'] = _ := hsp
  have hu : (if isDig c then Prec.DECADE else if isDig b then Prec.CENTURY else Prec.MILLENIUM) = yearUnit b c := by
    have key : ∀ k, isDX k = true → (isDig k = true ↔ k ≠ 'X') := by
      intro k hk
      rcases isDX_cases hk with ⟨h1, h2⟩ | rfl
      · simp [h1, h2]
      · decide
    unfold yearUnit
    simp only [key b hb', key c hc']
  generalize hsr : spanRec _ _ _ _ _ _ _ _ _ _ _ = sp at hsp
  have hp : parseString [a, b, c, 'X'] = .ok (mkEDTF sp [a, b, c, 'X'] 1 L1.UNSPECIFIED_DIGITS) := by
    rw [parse_level1 (not_level0_char hX (by decide)) h1]
    unfold L1.parseString
    rw [if_neg (by rw [not_letter (nm 'Y' (by decide))]; simp), if_neg hs,
      if_neg (by rw [isQualifiedDate_iff]; exact not_lang_of_char (c := 'X') (by decide) hX), if_pos (isUnspecifiedDigits_iff.2 hL)]
    unfold L1.parseUnspecifiedDigits
    rw [show Rx.UnspecifiedDigits.matchString [a, b, c, 'X'] = true from isUnspecifiedDigits_iff.2 hL, span_of_date (nm '/' (by decide)), hsp]
    rfl
  refine ⟨_, hp, rfl, ?_⟩
  rw [← hsr, hu]
  exact spanRec_prec _ _ _ _ _ _ _ _ _ _ _ _ _ _

example : (∃ r, parseString (c! "156X") = .ok r ∧ r.level = 1 ∧ AllPrec r Prec.DECADE) ∧ (∃ r, parseString (c! "15XX") = .ok r ∧ r.level = 1 ∧ AllPrec r Prec.CENTURY) ∧
    (∃ r, parseString (c! "1XXX") = .ok r ∧ r.level = 1 ∧ AllPrec r Prec.MILLENIUM) := by
  refine ⟨C46_unspecified_year (b := '5') (c := '6') ⟨1, by decide, rfl⟩ (Or.inr ⟨5, by decide, rfl⟩) (Or.inr ⟨6, by decide, rfl⟩),
    C46_unspecified_year (b := '5') (c := 'X') ⟨1, by decide, rfl⟩ (Or.inr ⟨5, by decide, rfl⟩) (Or.inl rfl),
    C46_unspecified_year (b := 'X') (c := 'X') ⟨1, by decide, rfl⟩ (Or.inl rfl) (Or.inl rfl)⟩

/-- What is reported instead for months and days in digits: always YEAR. -/
theorem C46_digits_partial {x : Date0} (h : x.ok) : ∃ r, parseString x.text = .ok r ∧ AllPrec r Prec.YEAR := date0_prec h

example : (⟨false, 1985, .day 4 12⟩ : Date0).ok := by decide

/-- C46 fails for every month and every day written in digits. -/
theorem C46_negation {x : Date0} (h : x.ok) {r : EDTFDate} (hp : parseString x.text = .ok r) :
    ¬ AllPrec r Prec.DAY ∧ ¬ AllPrec r Prec.MONTH := by
  obtain ⟨r', e, k⟩ := date0_prec h
  rw [hp] at e
  injection e with e
  subst e
  exact ⟨fun h => absurd (allPrec_unique h k) (by decide), fun h => absurd (allPrec_unique h k) (by decide)⟩

example : (∃ r, parseString (c! "1985-04-12") = .ok r) ∧ (c! "1985-04-12") = (⟨false, 1985, .day 4 12⟩ : Date0).text := ⟨⟨_, rfl⟩, rfl⟩

/-- The precision of every other date with unspecified digits that parses: YEAR or
MONTH as soon as an unspecified month or day decides it, otherwise that of the year. -/
theorem C46_unspecified_partial {x : XDate} (h : x.ok) (hX : 'X' ∈ x.text) (hw : 'X' ∈ x.year ∨ 'X' ∈ x.mx) {r : EDTFDate}
    (hp : parseString x.text = .ok r) :
    (x.dx = c! "XX" ∧ x.mx = c! "XX" → AllPrec r Prec.YEAR) ∧
    (x.dx = c! "XX" ∧ x.mx ≠ c! "XX" → AllPrec r Prec.MONTH) ∧
    (x.dx ≠ c! "XX" ∧ (x.mx = c! "0X" ∨ x.mx = c! "1X") → AllPrec r Prec.MONTH) ∧
    (x.dx ≠ c! "XX" ∧ x.mx ≠ c! "0X" ∧ x.mx ≠ c! "1X" → 'X' ∉ x.year → AllPrec r Prec.YEAR) ∧
    (x.dx ≠ c! "XX" ∧ x.mx ≠ c! "0X" ∧ x.mx ≠ c! "1X" → 'X' ∈ x.year →
      ∃ a b c, x.year = [a, b, c, 'X'] ∧ AllPrec r (yearUnit b c)) := by
  rcases xparse h hX hp with ⟨hs, hl, -⟩ | ⟨sp, l, ft, hd, rfl, -⟩
  · exfalso
    obtain ⟨n', m', d', hn', hm', e⟩ := xseason h hX hs
    rw [e] at hw
    rcases hw with hw | hw
    · exact absurd hw (pad4_noX _)
    · exact absurd hw (pad2_noX _)
  · obtain ⟨F, y1, y2, m1, m2, d1, d2, py, hF, e, hY, hM, hD, V1, V2, rfl⟩ := dateSpan_inv hd
    obtain ⟨f1, f2, f3, -⟩ := xform h hF e
    rw [f1] at hY
    have key := spanRec_prec x.text y1 m1 d1 y2 m2 d2 (sameDay y1 m1 d1 y2 m2 d2) (marked saysUncertain F.yc.q F.mq F.dq)
      (marked saysApproximate F.yc.q F.mq F.dq) (datePrec py F.mx F.dx) x.text l ft
    generalize mkEDTF _ _ _ _ = r at key
    rw [f2, f3] at key
    unfold datePrec at key
    refine ⟨?_, ?_, ?_, ?_, ?_⟩
    · intro hh; rwa [if_pos hh] at key
    · intro hh; rwa [if_neg (fun k => hh.2 k.2), if_pos hh.1] at key
    · intro hh; rwa [if_neg (fun k => hh.1 k.1), if_neg hh.1, if_pos hh.2] at key
    · intro hh hx
      rw [if_neg (fun k => hh.1 k.1), if_neg hh.1, if_neg (fun k => k.elim hh.2.1 hh.2.2)] at key
      have : py = Prec.YEAR := by
        generalize hs : sgn x.neg x.year = s at hY
        cases hY with
        | plain => rfl
        | x a b c ha =>
          exfalso
          have : 'X' ∈ sgn x.neg x.year := by rw [hs]; simp
          cases hn : x.neg <;> rw [hn] at this
          · exact hx this
          · exact hx ((List.mem_cons.1 this).resolve_left (by decide))
      rwa [this] at key
    · intro hh hx
      rw [if_neg (fun k => hh.1 k.1), if_neg hh.1, if_neg (fun k => k.elim hh.2.1 hh.2.2)] at key
      generalize hs : sgn x.neg x.year = s at hY
      cases hY with
      | plain neg n hn =>
        exfalso
        have : 'X' ∈ yearStr neg n := by rw [← hs]; cases x.neg <;> simp [sgn, hx]
        exact yearStr_not_mem _ _ (by decide) (by decide) this
      | x a b c ha hb hc =>
        cases hn : x.neg <;> rw [hn] at hs
        · refine ⟨a, b, c, hs, ?_⟩
          have k1 : ∀ k, isDX k = true → (isDig k = true ↔ k ≠ 'X') := by
            intro k hk
            rcases isDX_cases hk with ⟨h1, h2⟩ | rfl
            · simp [h1, h2]
            · decide
          unfold yearUnit
          simp only [k1 b hb, k1 c hc] at key
          exact key
        · injection hs with hs _
          rw [← hs] at ha; cases ha

example : (∃ r, parseString (c! "2004-1X") = .ok r) ∧ (c! "2004-1X") = (⟨false, c! "2004", .month (c! "1X")⟩ : XDate).text ∧
    (∃ r, parseString (c! "156X-XX-XX") = .ok r) ∧ (∃ r, parseString (c! "156X-12-25") = .ok r) := ⟨⟨_, rfl⟩, rfl, ⟨_, rfl⟩, ⟨_, rfl⟩⟩

end EDTF
