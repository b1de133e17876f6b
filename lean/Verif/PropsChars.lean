/- C78: the characters of the notation, and strings that are not UTF-8. -/
import Verif.Utf8
import Verif.LemmasDisp
import Verif.PropsGeneral
namespace EDTF
namespace Spec

/-- The characters that occur in EDTF strings as this package reads them. -/
def notationChars : List Char :=
  c! "0123456789-/.:+?~%[]{}, \t\n\u000c\rTZYyEeXxSPRINGUMFALWspringumfalwt\u017f"

/-- UTF-8 (RFC 3629, section 3). -/
def utf8 (c : Char) : List Nat :=
  let n := c.toNat
  if n < 0x80 then [n]
  else if n < 0x800 then [0xC0 + n / 64, 0x80 + n % 64]
  else if n < 0x10000 then [0xE0 + n / 4096, 0x80 + n / 64 % 64, 0x80 + n % 64]
  else [0xF0 + n / 262144, 0x80 + n / 4096 % 64, 0x80 + n / 64 % 64, 0x80 + n % 64]

/-- `b` is the UTF-8 text of `s`. -/
def IsUtf8 (b : List UInt8) (s : Str) : Prop := b.map UInt8.toNat = s.flatMap utf8

end Spec
open Spec

/-! ### The alphabet -/

theorem mayHave_foreign (r : Re) (hr : r.allR asciiR = true) {c : Char} (h : 128 ≤ c.toNat) (h1 : c ≠ '\u017f') (h2 : c ≠ '\u212a') :
    r.mayHave c = false := by
  induction r with
  | cls f rs =>
    have ho : orbit c = [c] := by
      unfold orbit
      rw [if_neg (by simp only [Bool.and_eq_true, Nat.ble_eq]; omega), if_neg (by simp only [Bool.and_eq_true, Nat.ble_eq]; omega),
        if_neg h1, if_neg h2]
    have hn : rs.any (inR c) = false := by
      rw [List.any_eq_false]
      intro p hp hc
      have := List.all_eq_true.1 hr p hp
      simp only [asciiR, inR, Bool.and_eq_true, Nat.ble_eq] at this hc
      omega
    unfold Re.mayHave clsHas
    rw [ho]
    cases f <;> simp [hn]
  | grp i a ih => exact ih hr
  | cat a b iha ihb =>
    obtain ⟨ha, hb⟩ := Bool.and_eq_true_iff.1 (show (a.allR asciiR && b.allR asciiR) = true from hr)
    simp only [Re.mayHave, iha ha, ihb hb, Bool.or_self]
  | alt a b iha ihb =>
    obtain ⟨ha, hb⟩ := Bool.and_eq_true_iff.1 (show (a.allR asciiR && b.allR asciiR) = true from hr)
    simp only [Re.mayHave, iha ha, ihb hb, Bool.or_self]
  | opt a ih => exact ih hr
  | star a ih => exact ih hr
  | plus a ih => exact ih hr
  | _ => rfl

/-- All characters of `r` are in the alphabet. -/
def Re.inside (r : Re) : Bool :=
  r.allR asciiR && !r.mayHave '\u212a' &&
  (List.range 128).all (fun n => notationChars.contains (Char.ofNat n) || !r.mayHave (Char.ofNat n))

theorem lang_inside {r : Re} (h : r.inside = true) {w : Str} (hw : Lang r w) : ∀ c ∈ w, c ∈ notationChars := by
  intro c hc
  have hm := lang_mayHave r w hw c hc
  unfold Re.inside at h
  rw [Bool.and_eq_true, Bool.and_eq_true] at h
  obtain ⟨⟨ha, hk⟩, ht⟩ := h
  by_cases h1 : c = '\u017f'
  · subst h1; decide
  by_cases h2 : c = '\u212a'
  · subst h2; rw [hm] at hk; exact absurd hk (by decide)
  by_cases hn : c.toNat < 128
  · have := List.all_eq_true.1 ht c.toNat (List.mem_range.2 hn)
    rw [Char.ofNat_toNat, hm] at this
    simpa using this
  · rw [mayHave_foreign r ha (by omega) h1 h2] at hm
    cases hm

theorem open_inside : ∀ c ∈ OPEN, c ∈ notationChars := by decide

theorem level0_inside {s : Str} (h : L0.isLevel0 s = true) : ∀ c ∈ s, c ∈ notationChars :=
  lang_inside (r := .grp 1 (Rx.date 2 ∥ Rx.dateAndTime 5 ∥ Rx.timeInterval 16)) (by decide +kernel)
    ((matchString_anch _ (by decide) s).1 h)

theorem level1_inside {s : Str} (h : L1.isLevel1 s = true) : ∀ c ∈ s, c ∈ notationChars :=
  lang_inside (r := .grp 1 (Rx.letterPrefixed 2 ∥ Rx.seasonNum 3 ∥ Rx.seasonText 5 ∥ (Rx.qualifiedDate 7).ci ∥
    (Rx.unspecifiedDigits 11).ci ∥ (Rx.intervalStart 14).ci ∥ (Rx.intervalEnd 18).ci ∥ (Rx.negativeYear 22).ci)) (by decide +kernel)
    ((matchString_anch _ (by decide) s).1 h)

/-- The level 2 pattern. -/
def l2body : Re := .grp 1 (Rx.exponentialYear 2 ∥ (Rx.significantDigits 3).ci ∥ (Rx.subYearGrouping 7).ci ∥
    (Rx.setRepresentations 9).ci ∥ (Rx.groupQualification 14).ci ∥ (Rx.individualQualification 20).ci ∥
    (Rx.unspecifiedDigit 26).ci ∥ (Rx.interval 29).ci)

theorem level2_prefix {s : Str} : L2.isLevel2 s = true ↔ ∃ u v, s = u ++ v ∧ Lang l2body u :=
  matchString_prefix l2body (by decide) s

theorem l2body_inside {w : Str} (h : Lang l2body w) : ∀ c ∈ w, c ∈ notationChars :=
  lang_inside (by decide +kernel) h

/-- A string with a character outside the notation passes no level 2 feature test. -/
theorem level2_none {s : Str} {c : Char} (hc : c ∈ s) (h : c ∉ notationChars) : L2.parseString s =
    .err (.invalid (c! "Invalid or unsupported Level 2 string") s) ∧
    L2.matchesStr s = .err (.invalid (c! "Invalid or unsupported Level 2 string") s) := by
  have k : ∀ (p : Str → Bool) (r : Re), r.inside = true → (p s = true ↔ Lang r s) → p s = false := by
    intro p r hr hp
    cases hh : p s with
    | false => rfl
    | true => exact absurd (lang_inside hr (hp.1 hh) c hc) h
  have e1 := k L2.isExponentialYear _ (by decide +kernel) isExponential_iff
  have e2 := k L2.isSignificantDigits _ (by decide +kernel) isSig_iff
  have e3 := k L2.isSubYearGrouping _ (by decide +kernel) isSubYear_iff
  have e4 := k L2.isSetRepresentation _ (by decide +kernel) isSet_iff
  have e5 := k L2.isGroupQualification _ (by decide +kernel) isGroup_iff
  have e6 := k L2.isIndividualQualification _ (by decide +kernel) isIndividual_iff
  have e7 := k L2.isUnspecifiedDigit _ (by decide +kernel) isUnspecifiedDigit_iff
  have e8 := k L2.isInterval _ (by decide +kernel) isInterval_iff
  unfold L2.parseString L2.matchesStr
  simp only [e1, e2, e3, e4, e5, e6, e7, e8]
  exact ⟨rfl, rfl⟩

/-- **C78**: a string with a character outside the notation is never
understood.  The error is that of level 2 if the string is "valid" because it
begins like a level 2 string, otherwise the string is unrecognized; `Matches`
says the same. -/
theorem C78_foreign {s : Str} {c : Char} (hc : c ∈ s) (h : c ∉ notationChars) :
    (isValid s = true → parseString s = .err (.invalid (c! "Invalid or unsupported Level 2 string") s) ∧
      matchesStr s = .err (.invalid (c! "Invalid or unsupported Level 2 string") s)) ∧
    (isValid s = false → parseString s = .err (.unrecognized (c! "Invalid or unsupported EDTF string") s) ∧
      matchesStr s = .err (.unrecognized (c! "Invalid or unsupported EDTF string") s)) := by
  have h0 : L0.isLevel0 s = false := by
    cases hh : L0.isLevel0 s with
    | false => rfl
    | true => exact absurd (level0_inside hh c hc) h
  have h1 : L1.isLevel1 s = false := by
    cases hh : L1.isLevel1 s with
    | false => rfl
    | true => exact absurd (level1_inside hh c hc) h
  have ho : s ≠ OPEN := by
    intro e; rw [e] at hc; exact h (open_inside c hc)
  have hu : s ≠ UNKNOWN := by
    intro e; rw [e] at hc; cases hc
  obtain ⟨hp, hm⟩ := level2_none hc h
  unfold isValid parseString matchesStr
  cases h2 : L2.isLevel2 s with
  | true =>
    rw [h0, h1]
    refine ⟨fun _ => ⟨?_, ?_⟩, fun hv => ?_⟩
    · rw [if_neg (by decide), if_neg (by decide), if_pos rfl, hp]
    · rw [if_neg (by decide), if_neg (by decide), if_pos rfl, hm]; rfl
    · cases hv
  | false =>
    rw [h0, h1]
    refine ⟨fun hv => ?_, fun _ => ⟨?_, ?_⟩⟩
    · exfalso
      simp [ho, hu] at hv
    · rw [if_neg (by decide), if_neg (by decide), if_neg (by decide), if_neg ho, if_neg hu]; rfl
    · rfl

example : parseString (c! "2001é") = .err (.invalid (c! "Invalid or unsupported Level 2 string") (c! "2001é")) ∧
    parseString (c! "é2001") = .err (.unrecognized (c! "Invalid or unsupported EDTF string") (c! "é2001")) :=
  ⟨((C78_foreign (c := 'é') (by decide) (by decide)).1 (by decide +kernel)).1,
   ((C78_foreign (c := 'é') (by decide) (by decide)).2 (by decide +kernel)).1⟩

/-- The string is understood. -/
def Res.good {α : Type} : Res α → Bool
  | .ok _ => true
  | _ => false

/-- **C78**: the alphabet is exact: these are the characters of the strings that are understood. -/
theorem C78_alphabet (c : Char) : (∃ s d, parseString s = .ok d ∧ c ∈ s) ↔ c ∈ notationChars := by
  constructor
  · rintro ⟨s, d, hp, hc⟩
    by_cases h : c ∈ notationChars
    · exact h
    · exfalso
      obtain ⟨hv, hn⟩ := C78_foreign hc h
      cases hh : isValid s with
      | true => rw [(hv hh).1] at hp; cases hp
      | false => rw [(hn hh).1] at hp; cases hp
  · intro h
    have k : ∀ s : Str, (parseString s).good = true → c ∈ s → ∃ s d, parseString s = .ok d ∧ c ∈ s := by
      intro s hs hc
      cases hh : parseString s with
      | ok d => exact ⟨s, d, hh, hc⟩
      | err e => rw [hh] at hs; cases hs
      | panic => rw [hh] at hs; cases hs
    have t : ∀ c ∈ notationChars, ∃ s ∈ [c! "2001-02-03T04:05:06Z", c! "2001-02-07T04:05:08+09:00", c! "[..2001]", c! "{2001,2002}",
        c! "2001/..", c! "2001?", c! "2001~", c! "2001%", c! "Y2001", c! "y2E3", c! "y2e3", c! "200X", c! "2001-01-0x",
        c! "2001S2", c! "SPRING,2001", c! "SUMMER,2001", c! "FALL,2001", c! "WINTER,2001", c! "spring \t\n\u000c\r,2001",
        c! "summer,2001", c! "fall,2001", c! "winter,2001", c! "\u017fpring,2001"], c ∈ s := by decide +kernel
    have t2 : ∀ s ∈ [c! "2001-02-03T04:05:06Z", c! "2001-02-07T04:05:08+09:00", c! "[..2001]", c! "{2001,2002}",
        c! "2001/..", c! "2001?", c! "2001~", c! "2001%", c! "Y2001", c! "y2E3", c! "y2e3", c! "200X", c! "2001-01-0x",
        c! "2001S2", c! "SPRING,2001", c! "SUMMER,2001", c! "FALL,2001", c! "WINTER,2001", c! "spring \t\n\u000c\r,2001",
        c! "summer,2001", c! "fall,2001", c! "winter,2001", c! "\u017fpring,2001"], (parseString s).good = true := by decide +kernel
    obtain ⟨s, hs, hc⟩ := t c h
    exact k s (t2 s hs) hc

/-- **C78**: what follows the first character outside the notation, and which
character that is, does not matter to `IsValid`. -/
theorem C78_rest {u v v' : Str} {c c' : Char} (h : c ∉ notationChars) (h' : c' ∉ notationChars) :
    isValid (u ++ c :: v) = isValid (u ++ c' :: v') := by
  have one : ∀ {c : Char} {v : Str}, c ∉ notationChars → (isValid (u ++ c :: v) = true ↔ ∃ a b, u = a ++ b ∧ Lang l2body a) := by
    intro c v h
    have hc : c ∈ u ++ c :: v := by simp
    have h0 : L0.isLevel0 (u ++ c :: v) = false := by
      cases hh : L0.isLevel0 (u ++ c :: v) with
      | false => rfl
      | true => exact absurd (level0_inside hh c hc) h
    have h1 : L1.isLevel1 (u ++ c :: v) = false := by
      cases hh : L1.isLevel1 (u ++ c :: v) with
      | false => rfl
      | true => exact absurd (level1_inside hh c hc) h
    have ho : (u ++ c :: v == OPEN) = false := by
      rw [beq_eq_false_iff_ne]
      intro e; rw [e] at hc; exact h (open_inside c hc)
    have hu : (u ++ c :: v == UNKNOWN) = false := by
      rw [beq_eq_false_iff_ne]
      intro e; rw [e] at hc; cases hc
    unfold isValid
    rw [h0, h1, ho, hu]
    cases h2 : L2.isLevel2 (u ++ c :: v) with
    | true =>
      simp only [Bool.false_eq_true, if_false, if_true, true_iff]
      obtain ⟨a, b, e, l⟩ := level2_prefix.1 h2
      have hl : a.length ≤ u.length := by
        by_cases hl : a.length ≤ u.length
        · exact hl
        · exfalso
          have : c ∈ a := by
            have e2 := congrArg (List.take a.length) e
            rw [List.take_left, List.take_append] at e2
            rw [← e2, List.mem_append]
            right
            obtain ⟨k, hk⟩ : ∃ k, a.length - u.length = k + 1 := ⟨a.length - u.length - 1, by omega⟩
            rw [hk]; simp
          exact h (l2body_inside l c this)
      refine ⟨a, u.drop a.length, ?_, l⟩
      have e2 := congrArg (List.take a.length) e
      rw [List.take_left, List.take_append_of_le_length hl] at e2
      rw [← e2]
      rw [List.length_take, Nat.min_eq_left hl, List.take_append_drop]
    | false =>
      simp only [Bool.false_eq_true, if_false, Bool.or_self, false_iff]
      rintro ⟨a, b, rfl, l⟩
      have := level2_prefix.2 ⟨a, b ++ c :: v, List.append_assoc a b _, l⟩
      rw [h2] at this; cases this
  have := (one (v := v) h).trans (one (v := v') h').symm
  cases hh : isValid (u ++ c :: v) <;> cases hh' : isValid (u ++ c' :: v') <;> simp_all

example : isValid (c! "2001-é") = isValid (c! "2001-ü03") := C78_rest (u := c! "2001-") (by decide) (by decide)
example : isValid (c! "2001-é") = true ∧ isValid (c! "200é") = false := by decide +kernel

/-! ### Bytes -/

theorem toNat_lt (b : UInt8) : b.toNat < 256 := b.toNat_lt

theorem ofNat_toNat' {n : Nat} (h : n < 0xD800 ∨ (0xDFFF < n ∧ n < 0x110000)) : (Char.ofNat n).toNat = n := by
  have hv : n.isValidChar := h
  unfold Char.ofNat
  rw [dif_pos hv]
  rfl

theorem char_valid (c : Char) : c.toNat < 0xD800 ∨ (0xDFFF < c.toNat ∧ c.toNat < 0x110000) := c.valid

theorem cont_iff {b : UInt8} : isCont b = true ↔ 0x80 ≤ b.toNat ∧ b.toNat ≤ 0xBF := by
  unfold isCont; rw [Bool.and_eq_true, Nat.ble_eq, Nat.ble_eq]

theorem second_iff {b0 b1 : UInt8} : isSecond b0 b1 = true ↔ 0x80 ≤ b1.toNat ∧ b1.toNat ≤ 0xBF ∧ (b0.toNat = 0xE0 → 0xA0 ≤ b1.toNat) ∧
    (b0.toNat = 0xED → b1.toNat ≤ 0x9F) ∧ (b0.toNat = 0xF0 → 0x90 ≤ b1.toNat) ∧ (b0.toNat = 0xF4 → b1.toNat ≤ 0x8F) := by
  unfold isSecond
  repeat' split
  all_goals simp only [Bool.and_eq_true, Nat.ble_eq, cont_iff]; omega

/-- Reading a rune and writing it. -/
theorem decode_sound {b0 : UInt8} {rest r : List UInt8} {c : Char} (h : decodeRune b0 rest = some (c, r)) :
    (b0 :: rest).map UInt8.toNat = utf8 c ++ r.map UInt8.toNat ∧ r.length ≤ rest.length := by
  have hb := toNat_lt b0
  unfold decodeRune at h
  split at h
  · cases h
    have e := ofNat_toNat' (n := b0.toNat) (by omega)
    unfold utf8
    simp only [e]
    rw [if_pos (by omega)]
    exact ⟨rfl, Nat.le_refl _⟩
  split at h
  · cases h
  split at h
  · split at h
    · rename_i b1 r' 
      split at h
      · rename_i hc
        injection h with h; injection h with hx hy; subst hx; subst hy
        rw [cont_iff] at hc
        have e := ofNat_toNat' (n := (b0.toNat - 0xC0) * 64 + (b1.toNat - 0x80)) (by omega)
        unfold utf8
        simp only [e]
        rw [if_neg (by omega), if_pos (by omega)]
        refine ⟨?_, by simp⟩
        simp only [List.map_cons, List.cons_append, List.nil_append, List.cons.injEq, and_true]
        omega
      · cases h
    · cases h
  split at h
  · split at h
    · rename_i b1 b2 r'
      split at h
      · rename_i hc
        injection h with h; injection h with hx hy; subst hx; subst hy
        rw [Bool.and_eq_true, cont_iff, second_iff] at hc
        have e := ofNat_toNat' (n := (b0.toNat - 0xE0) * 4096 + (b1.toNat - 0x80) * 64 + (b2.toNat - 0x80)) (by omega)
        unfold utf8
        simp only [e]
        rw [if_neg (by omega), if_neg (by omega), if_pos (by omega)]
        refine ⟨?_, by simp; omega⟩
        simp only [List.map_cons, List.cons_append, List.nil_append, List.cons.injEq, and_true]
        omega
      · cases h
    · cases h
  split at h
  · split at h
    · rename_i b1 b2 b3 r'
      split at h
      · rename_i hc
        injection h with h; injection h with hx hy; subst hx; subst hy
        rw [Bool.and_eq_true, Bool.and_eq_true, cont_iff, cont_iff, second_iff] at hc
        have e := ofNat_toNat' (n := (b0.toNat - 0xF0) * 262144 + (b1.toNat - 0x80) * 4096 + (b2.toNat - 0x80) * 64 +
          (b3.toNat - 0x80)) (by omega)
        unfold utf8
        simp only [e]
        rw [if_neg (by omega), if_neg (by omega), if_neg (by omega)]
        refine ⟨?_, by simp; omega⟩
        simp only [List.map_cons, List.cons_append, List.nil_append, List.cons.injEq, and_true]
        omega
      · cases h
    · cases h
  · cases h

theorem char_eq_of {c : Char} {n : Nat} (h : n = c.toNat) : Char.ofNat n = c := by
  subst h; exact Char.ofNat_toNat c

/-- Writing a rune and reading it. -/
theorem decode_complete (c : Char) {b r : List UInt8} (h : b.map UInt8.toNat = utf8 c ++ r.map UInt8.toNat) :
    ∃ b0 t, b = b0 :: t ∧ decodeRune b0 t = some (c, r) := by
  have inj : ∀ {a b : List UInt8}, a.map UInt8.toNat = b.map UInt8.toNat → a = b := by
    intro a
    induction a with
    | nil => intro b h; cases b with
      | nil => rfl
      | cons => cases h
    | cons x a ih => intro b h; cases b with
      | nil => cases h
      | cons y b =>
        simp only [List.map_cons, List.cons.injEq] at h
        rw [UInt8.toNat_inj.1 h.1, ih h.2]
  have hv := char_valid c
  unfold utf8 at h
  simp only at h
  split at h
  · rcases b with _ | ⟨b0, t⟩
    · cases h
    simp only [List.map_cons, List.cons_append, List.nil_append, List.cons.injEq] at h
    obtain ⟨h0, ht⟩ := h
    refine ⟨b0, t, rfl, ?_⟩
    unfold decodeRune
    rw [if_pos (by omega), char_eq_of h0, inj ht]
  split at h
  · rcases b with _ | ⟨b0, _ | ⟨b1, t⟩⟩
    · cases h
    · simp at h
    simp only [List.map_cons, List.cons_append, List.nil_append, List.cons.injEq] at h
    obtain ⟨h0, h1, ht⟩ := h
    refine ⟨b0, _, rfl, ?_⟩
    unfold decodeRune
    rw [if_neg (by omega), if_neg (by omega), if_pos (by omega)]
    simp only
    rw [if_pos (cont_iff.2 (by omega)), char_eq_of (c := c) (by omega), inj ht]
  split at h
  · rcases b with _ | ⟨b0, _ | ⟨b1, _ | ⟨b2, t⟩⟩⟩
    · cases h
    · simp at h
    · simp at h
    simp only [List.map_cons, List.cons_append, List.nil_append, List.cons.injEq] at h
    obtain ⟨h0, h1, h2, ht⟩ := h
    refine ⟨b0, _, rfl, ?_⟩
    unfold decodeRune
    rw [if_neg (by omega), if_neg (by omega), if_neg (by omega), if_pos (by omega)]
    simp only
    rw [if_pos (by rw [Bool.and_eq_true, cont_iff, second_iff]; omega), char_eq_of (c := c) (by omega), inj ht]
  · rcases b with _ | ⟨b0, _ | ⟨b1, _ | ⟨b2, _ | ⟨b3, t⟩⟩⟩⟩
    · cases h
    · simp at h
    · simp at h
    · simp at h
    simp only [List.map_cons, List.cons_append, List.nil_append, List.cons.injEq] at h
    obtain ⟨h0, h1, h2, h3, ht⟩ := h
    refine ⟨b0, _, rfl, ?_⟩
    unfold decodeRune
    rw [if_neg (by omega), if_neg (by omega), if_neg (by omega), if_neg (by omega), if_pos (by omega)]
    simp only
    rw [if_pos (by rw [Bool.and_eq_true, Bool.and_eq_true, cont_iff, cont_iff, second_iff]; omega),
      char_eq_of (c := c) (by omega), inj ht]

theorem utf8_ne (c : Char) : utf8 c ≠ [] := by
  unfold utf8; simp only; repeat' split
  all_goals simp

theorem runesGo_utf8 (s : Str) : ∀ (n : Nat) (b : List UInt8), b.length ≤ n → IsUtf8 b s → runesGo n b = s := by
  induction s with
  | nil =>
    intro n b _ h
    cases b with
    | nil => cases n <;> rfl
    | cons => cases h
  | cons c s ih =>
    intro n b hn h
    have h' : b.map UInt8.toNat = utf8 c ++ s.flatMap utf8 := h
    -- the bytes of the rest
    have hd : (b.drop (utf8 c).length).map UInt8.toNat = s.flatMap utf8 := by
      rw [List.map_drop, h', List.drop_left]
    have hb : b.map UInt8.toNat = utf8 c ++ (b.drop (utf8 c).length).map UInt8.toNat := by rw [hd, h']
    obtain ⟨b0, t, rfl, hdec⟩ := decode_complete c hb
    cases n with
    | zero => simp at hn
    | succ n =>
      unfold runesGo
      rw [hdec]
      simp only
      have hl := (decode_sound hdec).2
      simp only [List.length_cons] at hn
      rw [ih n _ (by omega) hd]

theorem runesGo_or : ∀ (n : Nat) (b : List UInt8), b.length ≤ n → IsUtf8 b (runesGo n b) ∨ runeError ∈ runesGo n b := by
  intro n
  induction n with
  | zero =>
    intro b h
    cases b with
    | nil => exact .inl rfl
    | cons => simp at h
  | succ n ih =>
    intro b h
    cases b with
    | nil => exact .inl rfl
    | cons b0 rest =>
      simp only [List.length_cons] at h
      unfold runesGo
      cases hd : decodeRune b0 rest with
      | none => exact .inr (List.mem_cons_self)
      | some p =>
        obtain ⟨c, r⟩ := p
        obtain ⟨e, hl⟩ := decode_sound hd
        simp only
        rcases ih r (by omega) with k | k
        · left
          unfold IsUtf8 at k ⊢
          rw [e, k]; rfl
        · exact .inr (List.mem_cons_of_mem _ k)

/-- **C78**: the runes of UTF-8 text are its characters. -/
theorem C78_utf8 {b : List UInt8} {s : Str} (h : IsUtf8 b s) :
    runes b = s ∧ parseBytes b = parseString s ∧ isValidBytes b = isValid s := by
  have := runesGo_utf8 s b.length b (Nat.le_refl _) h
  unfold parseBytes isValidBytes
  rw [show runes b = s from this]
  exact ⟨rfl, rfl, rfl⟩

example : parseBytes [0x31, 0x39, 0x38, 0x35] = parseString (c! "1985") := (C78_utf8 (by unfold IsUtf8; decide)).2.1
example : runes [0xC5, 0xBF, 0xE2, 0x84, 0xAA, 0xF0, 0x9F, 0x98, 0x80] = c! "\u017f\u212a😀" := by decide +kernel

/-- **C78**: bytes that are not UTF-8 are never understood and never crash the
parser: whatever the bytes, the outcome is one of the two errors. -/
theorem C78_bytes {b : List UInt8} (h : ¬ ∃ s, IsUtf8 b s) :
    (isValidBytes b = true → parseBytes b = .err (.invalid (c! "Invalid or unsupported Level 2 string") (runes b))) ∧
    (isValidBytes b = false → parseBytes b = .err (.unrecognized (c! "Invalid or unsupported EDTF string") (runes b))) := by
  rcases runesGo_or b.length b (Nat.le_refl _) with k | k
  · exact absurd ⟨_, k⟩ h
  · obtain ⟨h1, h2⟩ := C78_foreign (s := runes b) k (by decide)
    exact ⟨fun hv => (h1 hv).1, fun hv => (h2 hv).1⟩

example : parseBytes [0x31, 0x39, 0x38, 0x35, 0xFF] =
    .err (.invalid (c! "Invalid or unsupported Level 2 string") (c! "1985�")) :=
  (C78_bytes (b := [0x31, 0x39, 0x38, 0x35, 0xFF]) (by
    rintro ⟨s, h⟩
    have := (C78_utf8 h).1
    rw [← this] at h
    exact absurd h (by unfold IsUtf8; decide +kernel))).1 (by decide +kernel)

/-- **C78**: so a date is read from bytes if and only if they are the UTF-8
text of a string from which it is read. -/
theorem C78_read (b : List UInt8) (d : EDTFDate) : parseBytes b = .ok d ↔ ∃ s, IsUtf8 b s ∧ parseString s = .ok d := by
  constructor
  · intro h
    rcases runesGo_or b.length b (Nat.le_refl _) with k | k
    · exact ⟨_, k, h⟩
    · exfalso
      exact absurd ((C78_alphabet runeError).1 ⟨runes b, d, h, k⟩) (by decide)
  · rintro ⟨s, h, hp⟩
    rw [(C78_utf8 h).2.1, hp]

example : ∃ d, parseBytes [0x31, 0x39, 0x38, 0x35] = .ok d := by
  cases h : parseString (c! "1985") with
  | ok d => exact ⟨d, (C78_read _ d).2 ⟨_, by unfold IsUtf8; decide, h⟩⟩
  | err e => exact absurd ((show (parseString (c! "1985")).good = true by decide +kernel).symm.trans (congrArg Res.good h)) (by simp [Res.good])
  | panic => exact absurd ((show (parseString (c! "1985")).good = true by decide +kernel).symm.trans (congrArg Res.good h)) (by simp [Res.good])

end EDTF
