/- For C106: the text of a number. -/
import Verif.FloatText
import Verif.SpecFloat
import Verif.PropsBytesYmd
import Verif.LemmasExp
namespace EDTF
open Spec

theorem noDigit_takeWhile {rest : Str} (h : NoDigitNext rest) : rest.takeWhile isDig = [] ∧ rest.dropWhile isDig = rest := by
  cases rest with
  | nil => exact ⟨rfl, rfl⟩
  | cons c r =>
    have hc : isDig c = false := by
      cases hh : isDig c with
      | false => rfl
      | true =>
        obtain ⟨n, hn, rfl⟩ := (isDig_iff c).1 hh
        exact absurd rfl (h n r hn)
    simp [hc]

theorem take_digits {us : List Nat} (hu : ∀ d ∈ us, d < 10) {rest : Str} (h : NoDigitNext rest) :
    (us.map dig ++ rest).takeWhile isDig = us.map dig ∧ (us.map dig ++ rest).dropWhile isDig = rest := by
  induction us with
  | nil => exact noDigit_takeWhile h
  | cons d us ih =>
    obtain ⟨h1, h2⟩ := ih fun x hx => hu x (by simp [hx])
    have hd := isDig_dig_lt d (hu d (by simp))
    simp only [List.map_cons, List.cons_append, List.takeWhile_cons, List.dropWhile_cons, hd, if_true, h1, h2, and_self]

theorem digits_then (s : Str) : ∃ (us : List Nat) (rest : Str), (∀ d ∈ us, d < 10) ∧ NoDigitNext rest ∧ s = us.map dig ++ rest := by
  induction s with
  | nil => exact ⟨[], [], by simp, (fun d r _ e => by cases e), rfl⟩
  | cons c s ih =>
    by_cases h : isDig c = true
    · obtain ⟨n, hn, rfl⟩ := (isDig_iff c).1 h
      obtain ⟨us, rest, hu, hr, rfl⟩ := ih
      exact ⟨n :: us, rest, (by simpa using ⟨hn, hu⟩), hr, rfl⟩
    · refine ⟨[], c :: s, by simp, ?_, rfl⟩
      intro d r hd e
      injection e with e _
      rw [e, isDig_dig_lt d hd] at h
      exact h rfl

theorem noDigit_of {c : Char} (h : isDig c = false) (t : Str) : NoDigitNext (c :: t) := by
  intro d r hd e
  injection e with e _
  exact dig_ne hd h e.symm

/-! ### Signs -/

theorem sign_sound {s t : Str} {neg : Bool} (h : SignThen s neg t) : scanSign s = (neg, t) := by
  cases h with
  | minus t => rfl
  | plus t => rfl
  | none t h1 h2 =>
    unfold scanSign
    split
    · next u => exact absurd rfl (h1 u)
    · next u => exact absurd rfl (h2 u)
    · rfl

theorem sign_total (s : Str) : SignThen s (scanSign s).1 (scanSign s).2 := by
  unfold scanSign
  split
  · exact .minus _
  · exact .plus _
  · next h1 h2 => exact .none _ (fun u e => h1 u e) (fun u e => h2 u e)

/-! ### The mantissa -/

theorem mantissa_sound {t u : Str} {ds : List Nat} {d : Nat} (h : MantissaThen t ds d u) : scanMantissa t = (ds.map dig, d, u) := by
  cases h with
  | whole us hu rest hr hp =>
    unfold scanMantissa
    rw [(take_digits hu hr).1, (take_digits hu hr).2]
    split
    · next r => exact absurd rfl (hp r)
    · rfl
  | point us vs hu hv rest hr =>
    have hn := noDigit_of (c := '.') (by decide) (vs.map dig ++ u)
    unfold scanMantissa
    rw [(take_digits hu hn).1, (take_digits hu hn).2]
    simp only [(take_digits hv hr).1, (take_digits hv hr).2, List.map_append, List.length_map]

theorem mantissa_total (t : Str) : ∃ ds d u, MantissaThen t ds d u := by
  obtain ⟨us, rest, hu, hr, rfl⟩ := digits_then t
  by_cases h : ∃ r, rest = '.' :: r
  · obtain ⟨r, rfl⟩ := h
    obtain ⟨vs, rest, hv, hr', rfl⟩ := digits_then r
    exact ⟨_, _, _, .point us vs hu hv rest hr'⟩
  · exact ⟨_, _, _, .whole us hu rest hr fun r e => h ⟨r, e⟩⟩

theorem mantissa_digits {t u : Str} {ds : List Nat} {d : Nat} (h : MantissaThen t ds d u) : ∀ x ∈ ds, x < 10 := by
  cases h with
  | whole us hu => exact hu
  | point us vs hu hv =>
    intro x hx
    rcases List.mem_append.1 hx with h | h
    · exact hu x h
    · exact hv x h

/-! ### The exponent -/

theorem letter_iff {c : Char} : c ∈ c! "eEpP" ↔ (c = 'e' ∨ c = 'E' ∨ c = 'p' ∨ c = 'P') := by
  show c ∈ ['e', 'E', 'p', 'P'] ↔ _
  simp

theorem binary_iff {c : Char} : (c ∈ c! "pP") ↔ (c = 'p' ∨ c = 'P') := by
  show c ∈ ['p', 'P'] ↔ _
  simp

theorem exp_int {neg : Bool} {es : List Nat} (he : Digits es) : parseInt 64 (if neg then '-' :: es.map dig else es.map dig) =
    if (neg = true ∧ value10 es ≤ 2 ^ 63) ∨ (neg = false ∧ value10 es < 2 ^ 63) then some (if neg then -(value10 es : Int) else value10 es) else none := by
  have ha := map_digits es he.2
  have h0 : es.map dig ≠ [] := by simpa using he.1
  have hv := digitsVal_map es he.2
  cases neg with
  | true =>
    rw [if_pos rfl, parseInt_neg 64 ha h0, hv]
    simp
  | false =>
    rw [if_neg (by decide), parseInt_digits 64 ha h0, hv]
    simp

theorem exp_error {neg : Bool} {es : List Nat} (he : Digits es) (h1 : neg = false → 2 ^ 63 ≤ value10 es) (h2 : neg = true → 2 ^ 63 < value10 es) :
    numError (c! "ParseInt") 64 (if neg then '-' :: es.map dig else es.map dig) =
      c! "strconv.ParseInt: parsing " ++ quoted (signed neg (es.map dig)) ++ c! ": value out of range" := by
  have ha := map_digits es he.2
  have h0 : es.map dig ≠ [] := by simpa using he.1
  have hq : ∀ w : Str, (∀ c ∈ w, isDig c = true ∨ c = '-') → w.flatMap escapeGo = w := by
    intro w hw
    induction w with
    | nil => rfl
    | cons c w ih =>
      rw [List.flatMap_cons, ih fun x hx => hw x (by simp [hx])]
      have : escapeGo c = [c] := by
        rcases hw c (by simp) with h | rfl
        · obtain ⟨n, hn, rfl⟩ := (isDig_iff c).1 h
          have : ∀ n : Fin 10, escapeGo (dig n.val) = [dig n.val] := by decide
          exact this ⟨n, hn⟩
        · decide
      rw [this]; rfl
  have hw : ∀ c ∈ signed neg (es.map dig), isDig c = true ∨ c = '-' := by
    intro c hc
    unfold signed at hc
    split at hc
    · rcases List.mem_cons.1 hc with h | h
      · exact .inr h
      · exact .inl (List.all_eq_true.1 ha c h)
    · exact .inl (List.all_eq_true.1 ha c hc)
  show numError (c! "ParseInt") 64 (signed neg (es.map dig)) = _
  have hm : numMessage 64 (signed neg (es.map dig)) = c! "value out of range" := by
    have hd : ∃ v, Decimal (signed neg (es.map dig)) v := by
      cases neg with
      | true => exact ⟨_, es, he.1, he.2, .inr ⟨rfl, rfl⟩⟩
      | false => exact ⟨_, es, he.1, he.2, .inl ⟨.inl rfl, rfl⟩⟩
    obtain ⟨k1, k2⟩ := (decimal_iff _).1 hd
    rw [numMessage_eq, k2]
    cases hu : unsigned (signed neg (es.map dig)) with
    | nil => exact absurd hu k1
    | cons x xs => simp
  unfold numError quoteGo
  rw [hq _ hw, hm]
  simp [quoted]

theorem exponent_sound {u rest : Str} {bin : Bool} {e : Int} (h : ExponentThen u bin e rest) : scanExponent u = .ok bin e rest := by
  cases h with
  | none rest h =>
    unfold scanExponent
    split
    · rfl
    · next c r => rw [if_neg (fun k => h c r (letter_iff.2 k) rfl)]
  | some c hc t neg es he rest hr ht h1 h2 =>
    have hs := sign_sound ht
    unfold scanExponent
    simp only [if_pos (letter_iff.1 hc), hs, (take_digits he.2 hr).1, (take_digits he.2 hr).2]
    rw [if_neg (by simpa using he.1), exp_int he, if_pos (by cases neg with
      | true => exact .inl ⟨rfl, h2 rfl⟩
      | false => exact .inr ⟨rfl, h1 rfl⟩)]
    simp only [binary_iff]

theorem badExponent_sound {u w : Str} (h : BadExponent u w) : scanExponent u = .err w := by
  cases h with
  | empty c hc t neg rest hr ht =>
    have hs := sign_sound ht
    unfold scanExponent
    simp only [if_pos (letter_iff.1 hc), hs, (noDigit_takeWhile hr).1, if_true]
  | large c hc t neg es he rest hr ht h1 h2 =>
    have hs := sign_sound ht
    unfold scanExponent
    simp only [if_pos (letter_iff.1 hc), hs, (take_digits he.2 hr).1, (take_digits he.2 hr).2]
    rw [if_neg (by simpa using he.1), exp_int he, if_neg (by
      rintro (⟨hn, k⟩ | ⟨hn, k⟩)
      · have := h2 hn; omega
      · have := h1 hn; omega)]
    simp only [exp_error he h1 h2]

theorem exponent_total (u : Str) : (∃ bin e rest, ExponentThen u bin e rest) ∨ ∃ w, BadExponent u w := by
  by_cases h : ∃ c t, c ∈ c! "eEpP" ∧ u = c :: t
  · obtain ⟨c, t, hc, rfl⟩ := h
    have ht := sign_total t
    generalize (scanSign t).1 = neg at ht
    generalize (scanSign t).2 = r at ht
    obtain ⟨es, rest, he, hr, rfl⟩ := digits_then r
    by_cases h0 : es = []
    · subst h0
      exact .inr ⟨_, .empty c hc t neg rest hr ht⟩
    · have hd : Digits es := ⟨h0, he⟩
      by_cases hv : (neg = false → value10 es < 2 ^ 63) ∧ (neg = true → value10 es ≤ 2 ^ 63)
      · exact .inl ⟨_, _, _, .some c hc t neg es hd rest hr ht hv.1 hv.2⟩
      · refine .inr ⟨_, .large c hc t neg es hd rest hr ht ?_ ?_⟩
        · rintro rfl
          apply Nat.le_of_not_lt
          intro k
          exact hv ⟨fun _ => k, fun k => by cases k⟩
        · rintro rfl
          apply Nat.lt_of_not_le
          intro k
          exact hv ⟨(fun k => by cases k), fun _ => k⟩
  · exact .inl ⟨_, _, _, .none u fun c t hc e => h ⟨c, t, hc, e⟩⟩

/-! ### A byte in quotation marks -/

theorem quotedByte_sound {c : Char} {q : Str} (h : QuotedByte c q) : quoteByte c = q := by
  cases h with
  | mark c h => unfold quoteByte; rw [if_pos h]; rfl
  | named n l h =>
    simp only [List.mem_cons, List.not_mem_nil, or_false, Prod.mk.injEq] at h
    rcases h with ⟨rfl, rfl⟩ | ⟨rfl, rfl⟩ | ⟨rfl, rfl⟩ | ⟨rfl, rfl⟩ | ⟨rfl, rfl⟩ | ⟨rfl, rfl⟩ | ⟨rfl, rfl⟩ <;> decide
  | control c h =>
    have hm : ¬ (c = '\'' ∨ c = '\\') := by rintro (rfl | rfl) <;> revert h <;> decide
    unfold quoteByte
    rw [if_neg hm, if_neg (by omega), if_neg (by omega), if_neg (by omega), if_neg (by omega), if_neg (by omega), if_neg (by omega), if_neg (by omega),
      if_neg (by omega), if_pos (by omega), hexByte_eq _ (by omega)]
    rfl
  | latin c h =>
    have hm : ¬ (c = '\'' ∨ c = '\\') := by rintro (rfl | rfl) <;> revert h <;> decide
    unfold quoteByte
    rw [if_neg hm, if_neg (by omega), if_neg (by omega), if_neg (by omega), if_neg (by omega), if_neg (by omega), if_neg (by omega), if_neg (by omega),
      if_neg (by omega), if_neg (by omega), hexByte_eq _ (by omega)]
    rfl
  | plain c h1 h2 h =>
    unfold quoteByte
    rw [if_neg (by simp [h1, h2]), if_pos h]
    rfl

theorem quotedByte_total (c : Char) : ∃ q, QuotedByte c q := by
  by_cases hm : c = '\'' ∨ c = '\\'
  · exact ⟨_, .mark c hm⟩
  by_cases hl : 7 ≤ c.toNat ∧ c.toNat < 14
  · have : ∀ n : Fin 14, 7 ≤ n.val → ['a', 'b', 't', 'n', 'v', 'f', 'r'].any (fun l =>
      decide ((n.val, l) ∈ [(7, 'a'), (8, 'b'), (9, 't'), (10, 'n'), (11, 'v'), (12, 'f'), (13, 'r')])) = true := by decide +kernel
    obtain ⟨l, -, h⟩ := List.any_eq_true.1 (this ⟨c.toNat, hl.2⟩ hl.1)
    have k := QuotedByte.named _ l (of_decide_eq_true h)
    rw [← char_eq_ofNat c] at k
    exact ⟨_, k⟩
  by_cases hc : c.toNat < 32 ∨ c.toNat = 127
  · exact ⟨_, .control c (by omega)⟩
  by_cases hn : (128 ≤ c.toNat ∧ c.toNat ≤ 160) ∨ c.toNat = 173
  · exact ⟨_, .latin c hn⟩
  · simp only [not_or] at hm
    exact ⟨_, .plain c hm.1 hm.2 (by omega)⟩

end EDTF
