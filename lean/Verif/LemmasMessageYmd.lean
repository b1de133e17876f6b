/-
The texts of the errors of numbers and of package time, for all texts.
-/
import Verif.MessageDirect
import Verif.SpecMessageYmd
import Verif.LemmasPrintable
import Verif.PropsMessageDirect
import Verif.PropsYmd
namespace EDTF
open Spec Told

/-! ### Numbers -/

theorem char_eq_ofNat (c : Char) : c = Char.ofNat c.toNat := by
  rw [Char.ofNat_toNat]

theorem escaped_iff (c : Char) (u : Str) : Escaped c u ↔ u = escapeGo c := by
  have low : ∀ n : Fin 14, 7 ≤ n.val → ∃ l, (n.val, l) ∈ [(7, 'a'), (8, 'b'), (9, 't'), (10, 'n'), (11, 'v'), (12, 'f'), (13, 'r')] ∧
      escapeGo (Char.ofNat n.val) = ['\\', l] := by
    intro n
    have : ∀ n : Fin 14, 7 ≤ n.val → ['a', 'b', 't', 'n', 'v', 'f', 'r'].any (fun l =>
      decide ((n.val, l) ∈ [(7, 'a'), (8, 'b'), (9, 't'), (10, 'n'), (11, 'v'), (12, 'f'), (13, 'r')]) && decide (escapeGo (Char.ofNat n.val) = ['\\', l])) = true := by
      decide +kernel
    intro h
    obtain ⟨l, -, hl⟩ := List.any_eq_true.1 (this n h)
    simp only [Bool.and_eq_true, decide_eq_true_eq] at hl
    exact ⟨l, hl⟩
  constructor
  · intro h
    cases h with
    | mark c h => unfold escapeGo; rw [if_pos h]
    | named n l h =>
      simp only [List.mem_cons, List.not_mem_nil, or_false, Prod.mk.injEq] at h
      rcases h with ⟨rfl, rfl⟩ | ⟨rfl, rfl⟩ | ⟨rfl, rfl⟩ | ⟨rfl, rfl⟩ | ⟨rfl, rfl⟩ | ⟨rfl, rfl⟩ | ⟨rfl, rfl⟩ <;> decide
    | control c h =>
      have hm : ¬ (c = '"' ∨ c = '\\') := by rintro (rfl | rfl) <;> revert h <;> decide
      unfold escapeGo
      rw [if_neg hm, if_neg (by omega), if_neg (by omega), if_neg (by omega), if_neg (by omega), if_neg (by omega), if_neg (by omega), if_neg (by omega),
        if_pos (by omega), hexByte_eq _ (by omega)]
    | plain c h1 h2 h3 h4 h5 =>
      unfold escapeGo
      rw [if_neg (by simp [h1, h2]), if_neg (by omega), if_neg (by omega), if_neg (by omega), if_neg (by omega), if_neg (by omega), if_neg (by omega), if_neg (by omega), if_neg (by omega)]
      by_cases hc : c.toNat < 127
      · rw [if_pos (.inl hc)]
      · rw [if_pos (.inr ((isPrint_iff (by omega)).2 h5))]
    | short c h hc =>
      have := unprintable_ge h
      have hm : ¬ (c = '"' ∨ c = '\\') := by rintro (rfl | rfl) <;> revert this <;> decide
      unfold escapeGo
      rw [if_neg hm, if_neg (by omega), if_neg (by omega), if_neg (by omega), if_neg (by omega), if_neg (by omega), if_neg (by omega), if_neg (by omega), if_neg (by omega), if_neg (by rw [isPrint_iff (by omega)]; rintro (k | k); omega; exact k h),
        if_pos (by omega), List.append_assoc, hex_four (by omega)]
    | long c h hc =>
      have := unprintable_ge h
      have hm : ¬ (c = '"' ∨ c = '\\') := by rintro (rfl | rfl) <;> revert this <;> decide
      unfold escapeGo
      rw [if_neg hm, if_neg (by omega), if_neg (by omega), if_neg (by omega), if_neg (by omega), if_neg (by omega), if_neg (by omega), if_neg (by omega), if_neg (by omega), if_neg (by rw [isPrint_iff (by omega)]; rintro (k | k); omega; exact k h),
        if_neg (by omega), hex_eight (char_lt c)]
  · rintro rfl
    by_cases hm : c = '"' ∨ c = '\\'
    · have : escapeGo c = ['\\', c] := by unfold escapeGo; rw [if_pos hm]
      rw [this]
      exact .mark c hm
    · by_cases hl : 7 ≤ c.toNat ∧ c.toNat < 14
      · obtain ⟨l, h1, h2⟩ := low ⟨c.toNat, hl.2⟩ hl.1
        simp only at h1 h2
        have k := Escaped.named _ l h1
        rw [← h2, ← char_eq_ofNat c] at k
        exact k
      · by_cases hc : c.toNat < 32 ∨ c.toNat = 127
        · have : escapeGo c = c! "\\x" ++ hex2 c.toNat := by
            unfold escapeGo
            rw [if_neg hm, if_neg (by omega), if_neg (by omega), if_neg (by omega), if_neg (by omega), if_neg (by omega), if_neg (by omega), if_neg (by omega),
              if_pos hc, hexByte_eq _ (by omega)]
          rw [this]
          exact .control c (by omega)
        · by_cases hp : Unprintable c
          · have := unprintable_ge hp
            have hn : ¬ (c.toNat < 127 ∨ isPrint c = true) := by rw [isPrint_iff (by omega)]; rintro (k | k); omega; exact k hp
            by_cases hs : c.toNat < 0x10000
            · have : escapeGo c = c! "\\u" ++ hexDigits 4 c.toNat := by
                unfold escapeGo
                rw [if_neg hm, if_neg (by omega), if_neg (by omega), if_neg (by omega), if_neg (by omega), if_neg (by omega), if_neg (by omega), if_neg (by omega), if_neg hc, if_neg hn, if_pos hs, List.append_assoc, hex_four (by omega)]
              rw [this]
              exact .short c hp (by omega)
            · have : escapeGo c = c! "\\U" ++ hexDigits 8 c.toNat := by
                unfold escapeGo
                rw [if_neg hm, if_neg (by omega), if_neg (by omega), if_neg (by omega), if_neg (by omega), if_neg (by omega), if_neg (by omega), if_neg (by omega), if_neg hc, if_neg hn, if_neg hs, hex_eight (char_lt c)]
              rw [this]
              exact .long c hp (by omega)
          · have : escapeGo c = [c] := by
              unfold escapeGo
              rw [if_neg hm, if_neg (by omega), if_neg (by omega), if_neg (by omega), if_neg (by omega), if_neg (by omega), if_neg (by omega), if_neg (by omega), if_neg hc]
              by_cases hk : c.toNat < 127
              · rw [if_pos (.inl hk)]
              · rw [if_pos (.inr ((isPrint_iff (by omega)).2 hp))]
            rw [this]
            simp only [not_or] at hm
            exact .plain c hm.1 hm.2 (by omega) (by omega) hp

theorem escapedAll_iff (s q : Str) : EscapedAll s q ↔ q = s.flatMap escapeGo := by
  constructor
  · intro h
    induction h with
    | nil => rfl
    | cons c s u v h k ih => rw [List.flatMap_cons, ih, (escaped_iff c u).1 h]
  · rintro rfl
    induction s with
    | nil => exact .nil
    | cons c s ih => rw [List.flatMap_cons]; exact .cons c s _ _ ((escaped_iff c _).2 rfl) ih

/-- What follows the sign. -/
def unsigned (s : Str) : Str :=
  match s with
  | '-' :: ds => ds
  | '+' :: ds => ds
  | ds => ds

theorem unsigned_split (s : Str) : ∃ sg, (sg = [] ∨ sg = c! "-" ∨ sg = c! "+") ∧ s = sg ++ unsigned s := by
  unfold unsigned
  split
  · exact ⟨c! "-", .inr (.inl rfl), rfl⟩
  · exact ⟨c! "+", .inr (.inr rfl), rfl⟩
  · exact ⟨[], .inl rfl, rfl⟩

theorem unsigned_digit {c : Char} (h : isDig c = true) (s : Str) : unsigned (c :: s) = c :: s := by
  unfold unsigned
  split
  · rename_i e; injection e with e _; exact absurd e (isDig_ne h (by decide))
  · rename_i e; injection e with e _; exact absurd e (isDig_ne h (by decide))
  · rfl

theorem takeWhile_append_digits {w : Str} (h : w.all isDig = true) (r : Str) : (w ++ r).takeWhile isDig = w ++ r.takeWhile isDig := by
  induction w with
  | nil => rfl
  | cons c w ih =>
    simp only [List.all_cons, Bool.and_eq_true] at h
    simp only [List.cons_append, List.takeWhile_cons, h.1, if_true, ih h.2]

theorem long_iff (t : Str) : LongNumber t ↔ 2 ^ 64 ≤ digitsVal ((unsigned t).takeWhile isDig) := by
  constructor
  · rintro ⟨sg, ds, rest, hs, hd, hv, rfl⟩
    have hu : unsigned (sg ++ (ds.map dig ++ rest)) = ds.map dig ++ rest := by
      rcases hs with rfl | rfl | rfl
      · cases ds with
        | nil => exact absurd hv (by decide)
        | cons d ds => exact unsigned_digit (isDig_dig_lt d (hd d (by simp))) _
      · rfl
      · rfl
    rw [hu, takeWhile_append_digits (all_dig hd), digitsVal_append, digitsVal_map ds hd]
    have : 1 ≤ 10 ^ (rest.takeWhile isDig).length := Nat.one_le_iff_ne_zero.2 (by simp)
    have := Nat.mul_le_mul_left (value10 ds) this
    omega
  · intro h
    obtain ⟨sg, hs, e⟩ := unsigned_split t
    obtain ⟨ds, h1, h2⟩ := digits_map (takeWhile_all isDig (unsigned t))
    refine ⟨sg, ds, (unsigned t).dropWhile isDig, hs, h1, ?_, ?_⟩
    · rw [h2, digitsVal_map ds h1] at h; exact h
    · rw [← h2, List.takeWhile_append_dropWhile]; exact e

theorem decimal_iff (t : Str) : (∃ v, Decimal t v) ↔ unsigned t ≠ [] ∧ (unsigned t).all isDig = true := by
  constructor
  · rintro ⟨v, ds, h0, h1, ⟨rfl | rfl, -⟩ | ⟨rfl, -⟩⟩
    · cases ds with
      | nil => exact absurd rfl h0
      | cons d ds =>
        rw [List.map_cons, unsigned_digit (isDig_dig_lt d (h1 d (by simp)))]
        exact ⟨by simp, all_dig (ds := d :: ds) h1⟩
    · exact ⟨by show ds.map dig ≠ []; simpa using h0, all_dig h1⟩
    · exact ⟨by show ds.map dig ≠ []; simpa using h0, all_dig h1⟩
  · rintro ⟨h0, h1⟩
    obtain ⟨sg, hs, e⟩ := unsigned_split t
    obtain ⟨ds, d1, d2⟩ := digits_map h1
    have n0 : ds ≠ [] := by rintro rfl; exact h0 d2
    rw [d2] at e
    rcases hs with rfl | rfl | rfl
    · exact ⟨_, ds, n0, d1, .inl ⟨.inl e, rfl⟩⟩
    · exact ⟨_, ds, n0, d1, .inr ⟨e, rfl⟩⟩
    · exact ⟨_, ds, n0, d1, .inl ⟨.inr e, rfl⟩⟩

theorem numMessage_eq (t : Str) : numMessage 64 t =
    if digitsVal ((unsigned t).takeWhile isDig) < 2 ^ 64 && ((unsigned t).isEmpty || !(unsigned t).all isDig) then c! "invalid syntax" else c! "value out of range" := rfl

theorem decimal_value {t : Str} {v : Int} (h : Decimal t v) : v.natAbs = digitsVal (unsigned t) := by
  obtain ⟨ds, h0, h1, ⟨rfl | rfl, rfl⟩ | ⟨rfl, rfl⟩⟩ := h
  · cases ds with
    | nil => exact absurd rfl h0
    | cons d ds =>
      rw [List.map_cons, unsigned_digit (isDig_dig_lt d (h1 d (by simp))), ← List.map_cons, digitsVal_map _ h1]
      omega
  · show _ = digitsVal (ds.map dig)
    rw [digitsVal_map _ h1]; omega
  · show _ = digitsVal (ds.map dig)
    rw [digitsVal_map _ h1]; omega

theorem map_dig_inj : ∀ {a b : List Nat}, (∀ d ∈ a, d < 10) → (∀ d ∈ b, d < 10) → a.map dig = b.map dig → a = b
  | [], [], _, _, _ => rfl
  | [], _ :: _, _, _, h => by cases h
  | _ :: _, [], _, _, h => by cases h
  | x :: a, y :: b, ha, hb, h => by
    simp only [List.map_cons, List.cons.injEq] at h
    rw [dig_inj (ha x (by simp)) (hb y (by simp)) h.1, map_dig_inj (fun d hd => ha d (by simp [hd])) (fun d hd => hb d (by simp [hd])) h.2]

theorem decimal_unique {t : Str} {u v : Int} (h : Decimal t u) (k : Decimal t v) : u = v := by
  have key : ∀ {ds : List Nat} {c : Char} {s : Str}, (∀ d ∈ ds, d < 10) → isDig c = false → ds.map dig = c :: s → False := by
    intro ds c s h1 hc e
    cases ds with
    | nil => cases e
    | cons d ds =>
      rw [List.map_cons] at e
      injection e with e _
      rw [← e, isDig_dig_lt d (h1 d (by simp))] at hc
      cases hc
  obtain ⟨a, a0, a1, ⟨rfl | rfl, rfl⟩ | ⟨rfl, rfl⟩⟩ := h <;> obtain ⟨b, b0, b1, ⟨e | e, rfl⟩ | ⟨e, rfl⟩⟩ := k
  · rw [map_dig_inj a1 b1 e]
  · exact (key a1 (by decide) e).elim
  · exact (key a1 (by decide) e).elim
  · exact (key b1 (by decide) e.symm).elim
  · injection e with _ e; rw [map_dig_inj a1 b1 e]
  · injection e with e; exact absurd e (by decide)
  · exact (key b1 (by decide) e.symm).elim
  · injection e with e; exact absurd e (by decide)
  · injection e with _ e; rw [map_dig_inj a1 b1 e]

theorem takeWhile_self {w : Str} (h : w.all isDig = true) : w.takeWhile isDig = w := by
  have := takeWhile_append_digits h []
  rw [List.append_nil] at this
  rw [this, List.takeWhile_nil, List.append_nil]

theorem noIntReason_iff (t r : Str) : NoIntReason t r ↔ (∀ v, ¬ IntText t v) ∧ r = numMessage 64 t := by
  rw [numMessage_eq]
  constructor
  · intro h
    cases h with
    | long h =>
      have k := (long_iff t).1 h
      refine ⟨fun v hv => ?_, ?_⟩
      · have ha := ((decimal_iff t).1 ⟨v, hv.1⟩).2
        have e := decimal_value hv.1
        rw [takeWhile_self ha] at k
        have := hv.2
        omega
      · rw [if_neg]
        simp only [Bool.and_eq_true, decide_eq_true_eq, not_and]
        intro h; omega
    | range v h hv =>
      obtain ⟨h0, h1⟩ := (decimal_iff t).1 ⟨v, h⟩
      refine ⟨fun u hu => ?_, ?_⟩
      · obtain ⟨d1, d2⟩ := hu
        have := decimal_unique h d1
        omega
      · rw [if_neg]
        rw [h1]
        cases hu : unsigned t with
        | nil => exact absurd hu h0
        | cons => simp
    | other h1 h2 =>
      refine ⟨fun v hv => h1 v hv.1, ?_⟩
      rw [long_iff] at h2
      have h3 : ¬ (unsigned t ≠ [] ∧ (unsigned t).all isDig = true) := by
        rw [← decimal_iff]; rintro ⟨v, hv⟩; exact h1 v hv
      rw [if_pos]
      simp only [Bool.and_eq_true, decide_eq_true_eq, Bool.or_eq_true, Bool.not_eq_true', List.isEmpty_iff]
      refine ⟨by omega, ?_⟩
      by_cases hu : unsigned t = []
      · exact .inl hu
      · right
        cases ha : (unsigned t).all isDig with
        | false => rfl
        | true => exact absurd ⟨hu, ha⟩ h3
  · rintro ⟨h, rfl⟩
    by_cases hl : LongNumber t
    · have k := (long_iff t).1 hl
      rw [if_neg (by simp only [Bool.and_eq_true, decide_eq_true_eq, not_and]; intro h; omega)]
      exact .long hl
    · have k := hl
      rw [long_iff] at k
      by_cases hd : ∃ v, Decimal t v
      · obtain ⟨h0, h1⟩ := (decimal_iff t).1 hd
        obtain ⟨v, hv⟩ := hd
        rw [if_neg (by
          rw [h1]
          cases hu : unsigned t with
          | nil => exact absurd hu h0
          | cons => simp)]
        refine .range v hv ?_
        have := h v
        unfold IntText at this
        by_cases a : v < -2 ^ 63
        · exact .inl a
        · by_cases b : 2 ^ 63 ≤ v
          · exact .inr b
          · exact absurd ⟨hv, by omega, by omega⟩ this
      · have h3 : ¬ (unsigned t ≠ [] ∧ (unsigned t).all isDig = true) := by rw [← decimal_iff]; exact hd
        rw [if_pos (by
          simp only [Bool.and_eq_true, decide_eq_true_eq, Bool.or_eq_true, Bool.not_eq_true', List.isEmpty_iff]
          refine ⟨by omega, ?_⟩
          by_cases hu : unsigned t = []
          · exact .inl hu
          · right
            cases ha : (unsigned t).all isDig with
            | false => rfl
            | true => exact absurd ⟨hu, ha⟩ h3)]
        exact .other (fun v hv => hd ⟨v, hv⟩) hl

/-- What Atoi says. -/
theorem noInt_iff (t w : Str) : NoInt t w ↔ atoiM t = .says w := by
  have e : ∀ w, (∀ v, ¬ IntText t v) → (atoiM t = .says w ↔ w = c! "strconv.Atoi: parsing \"" ++ t.flatMap escapeGo ++ c! "\": " ++ numMessage 64 t) := by
    intro w h
    have ha : atoi t = none := by
      cases hh : atoi t with
      | none => rfl
      | some v => exact absurd ((atoi_iff t v).1 hh) (h v)
    have hn : numError (c! "Atoi") 64 t = c! "strconv.Atoi: parsing \"" ++ t.flatMap escapeGo ++ c! "\": " ++ numMessage 64 t := by
      unfold numError quoteGo
      simp
    unfold atoiM
    rw [ha]
    simp only [hn]
    constructor
    · intro h; injection h with h; injection h with _ h; exact h.symm
    · rintro rfl; rfl
  constructor
  · rintro ⟨q, r, hq, hr, rfl⟩
    obtain ⟨h1, rfl⟩ := (noIntReason_iff t r).1 hr
    rw [escapedAll_iff] at hq
    subst hq
    exact (e _ h1).2 rfl
  · intro h
    have h1 : ∀ v, ¬ IntText t v := by
      intro v hv
      rw [atoiM_ok ((atoi_iff t v).2 hv)] at h
      cases h
    exact ⟨_, _, (escapedAll_iff t _).2 rfl, (noIntReason_iff t _).2 ⟨h1, rfl⟩, (e w h1).1 h⟩

theorem atoiM_cases (t : Str) : (∃ v, IntText t v ∧ atoiM t = .ok v) ∨ (∃ w, NoInt t w ∧ atoiM t = .says w) := by
  cases h : atoi t with
  | some v => exact .inl ⟨v, (atoi_iff t v).1 h, atoiM_ok h⟩
  | none =>
    have : atoiM t = .says (numError (c! "Atoi") 64 t) := by unfold atoiM; rw [h]
    exact .inr ⟨_, (noInt_iff t _).2 this, this⟩

theorem atoiM_int {t : Str} {v : Int} : atoiM t = .ok v ↔ IntText t v := by
  rw [← atoi_iff]
  constructor
  · intro h
    unfold atoiM at h
    cases e : atoi t with
    | none => rw [e] at h; cases h
    | some u => rw [e] at h; injection h with h; rw [h]
  · exact atoiM_ok

/-! ### Days of a month -/

theorem natDigits_eq (n : Nat) : natDigits n = Nat.toDigits 10 n := by
  have := itoa_digits n
  unfold itoa at this
  rw [if_neg (by omega), Int.natAbs_natCast] at this
  exact this

theorem zeroPad_long {k : Nat} {s : Str} (h : k ≤ s.length) : zeroPad k s = s := by
  unfold zeroPad
  rw [show k - s.length = 0 by omega]
  rfl

theorem natDigits_some (n : Nat) : 1 ≤ (natDigits n).length := by
  by_cases h : n < 10
  · rw [natDigits_lt h]; simp
  · have := natDigits_length_le (n := n) (k := 1) (by decide)
    omega

theorem padInt_two (m : Int) : padInt 2 m = twoText m := by
  unfold padInt twoText
  by_cases h : m < 0
  · rw [if_pos h, if_pos h, zeroPad_long (natDigits_some _), natDigits_eq]
  · rw [if_neg h, if_neg h]
    by_cases h10 : m < 10
    · rw [if_pos h10, zeroPad2 (by omega)]
    · rw [if_neg h10, ← natDigits_eq]
      have := natDigits_length_le (n := m.natAbs) (k := 1) (by decide)
      exact zeroPad_long (by omega)

theorem padInt_four (n : Nat) : padInt 4 (n : Int) = fourText n := by
  unfold fourText
  by_cases h : n < 10000
  · rw [if_pos h, padInt4 h]
  · rw [if_neg h, ← natDigits_eq]
    unfold padInt
    rw [if_neg (by omega), Int.natAbs_natCast]
    have := natDigits_long (n := n) (by omega)
    exact zeroPad_long (by omega)

theorem bare_dig {c : Char} (h : isDig c = true) : bare c = true := bare_isDX (by simp [isDX, h])

theorem bare_all_digits {w : Str} (h : w.all isDig = true) : ∀ c ∈ w, bare c = true := fun c hc => bare_dig (List.all_eq_true.1 h c hc)

theorem bare_two (m : Int) : ∀ c ∈ twoText m, bare c = true := by
  have h2 : (Nat.toDigits 10 m.natAbs).all isDig = true := by rw [← natDigits_eq]; exact natDigits_all _
  unfold twoText
  intro c hc
  split at hc
  · rcases List.mem_cons.1 hc with rfl | hc
    · decide
    · exact bare_all_digits h2 c hc
  · split at hc
    · exact bare_all_digits (w := pad2 m.natAbs) (pad2_all _) c hc
    · exact bare_all_digits h2 c hc

theorem bare_append {a b : Str} (ha : ∀ c ∈ a, bare c = true) (hb : ∀ c ∈ b, bare c = true) : ∀ c ∈ a ++ b, bare c = true := by
  intro c hc
  rcases List.mem_append.1 hc with h | h
  · exact ha c h
  · exact hb c h

theorem bare_rest (m : Int) : ∀ c ∈ '-' :: (twoText m ++ c! "-01"), bare c = true := by
  intro c hc
  rcases List.mem_cons.1 hc with rfl | hc
  · decide
  · exact bare_append (bare_two m) (by decide) c hc

/-- A day that cannot be read, where all characters are printable. -/
theorem timeError_cannot {s rest : Str} (hs : ∀ c ∈ s, bare c = true) (hr : ∀ c ∈ rest, bare c = true) {part : Str} (hp : ∀ c ∈ part, bare c = true) :
    timeError layoutDate s (.bad part rest) = cannot s rest (c! "2006-01-02") part := by
  unfold timeError cannot
  simp only
  rw [quoteText_bare hs, quoteText_bare hr, quoteText_bare hp]
  rfl

theorem days_text (y : Int) (m : Int) {z : Int} (h : (if y < 0 then wrap64 (y - wrap64 (y * 2)) else y) = z) :
    daysInMonthM y m = (do
      let t ← timeParseM layoutDate (padInt 4 z ++ '-' :: (twoText (nextMonth m) ++ c! "-01"))
      .ok (timeDay (addDate t 0 (-1)))) := by
  unfold daysInMonthM nextMonth
  simp only [h, padInt_two]
  simp

theorem year_bad {z : Nat} (hz : 9999 < z) (r : Str) : parseToksM layoutDate {} (fourText z ++ '-' :: r) =
    .inr (.bad (c! "-") ((Nat.toDigits 10 z).drop 4 ++ '-' :: r)) := by
  unfold fourText
  rw [if_neg (by omega), ← natDigits_eq]
  have h1 := natDigits_all z
  have h2 := natDigits_long (n := z) (by omega)
  revert h1 h2
  generalize natDigits z = w
  intro h1 h2
  match w, h2 with
  | a :: b :: c :: d :: e :: w, _ =>
    simp only [List.all_cons, Bool.and_eq_true] at h1
    obtain ⟨ha, hb, hc, hd, he, -⟩ := h1
    have hne : e ≠ '-' := isDig_ne he (by decide)
    simp [layoutDate, parseToksM, parseTok, ha, hb, hc, hd, hne, tokFault, Tok.text]

theorem days_says {y m : Int} {w : Str} (h1 : -2 ^ 63 ≤ y) (h2 : y < 2 ^ 63) : DaysComplaint y m w → daysInMonthM y m = .says w := by
  have hw := wrap_flip h1 h2
  have hb4 : ∀ n, ∀ c ∈ fourText n, bare c = true := by
    intro n
    unfold fourText
    split
    · exact bare_all_digits (pad4_all _)
    · exact bare_all_digits (by rw [← natDigits_eq]; exact natDigits_all _)
  intro h
  cases h with
  | year hy hm =>
    rw [days_text y m (z := (y.natAbs : Int)) (by rw [hw]; split <;> (try split) <;> omega), padInt_four]
    unfold timeParseM
    rw [year_bad hy]
    simp only
    rw [timeError_cannot (bare_append (hb4 _) (bare_rest _)) (bare_append ?_ (bare_rest _)) (by decide)]
    · rfl
    · intro c hc
      have : (Nat.toDigits 10 y.natAbs).all isDig = true := by rw [← natDigits_eq]; exact natDigits_all _
      exact bare_all_digits this c (List.mem_of_mem_drop hc)
  | least hy =>
    subst hy
    rw [days_text (-2 ^ 63) m (z := -2 ^ 63) (by rw [hw]; decide), show padInt 4 (-2 ^ 63) = c! "-9223372036854775808" by decide +kernel]
    have hp : ∀ r, parseToksM layoutDate {} (c! "-9223372036854775808" ++ r) = .inr (.bad (c! "2006") (c! "-9223372036854775808" ++ r)) := by
      intro r
      simp [layoutDate, parseToksM, parseTok, tokFault, Tok.text, show isDig '-' = false from rfl]
    unfold timeParseM
    rw [hp]
    simp only
    rw [timeError_cannot (bare_append (by decide) (bare_rest _)) (bare_append (by decide) (bare_rest _)) (by decide)]
    simp
    rfl
  | zero hy hm =>
    subst hm
    rw [days_text y (-1) (z := (y.natAbs : Int)) (by rw [hw]; split <;> (try split) <;> omega), padInt4 (by omega)]
    have hp : parseToksM layoutDate {} (pad4 y.natAbs ++ '-' :: (twoText (nextMonth (-1)) ++ c! "-01")) = .inr (outOfRange (c! "month")) := by
      show parseToksM layoutDate {} (pad4 y.natAbs ++ '-' :: c! "00-01") = _
      unfold layoutDate
      simp only [parseToksM]
      rw [parseTok_year4 _ (by omega)]
      rfl
    unfold timeParseM
    rw [hp]
    show Told.says _ = _
    unfold timeError outOfRange
    simp only
    rw [quoteText_bare (s := pad4 y.natAbs ++ '-' :: (twoText (nextMonth (-1)) ++ c! "-01")) (bare_append (bare_all_digits (pad4_all _)) (bare_rest _))]
    show Told.says (_ ++ quoted (pad4 y.natAbs ++ c! "-00-01") ++ _) = _
    rfl
  | negative hy hm =>
    rw [days_text y m (z := (y.natAbs : Int)) (by rw [hw]; split <;> (try split) <;> omega), padInt4 (by omega)]
    have hn : nextMonth m = m + 1 := by unfold nextMonth; rw [if_neg (by omega)]
    have ht : ∃ v, twoText (m + 1) = '-' :: v := by unfold twoText; rw [if_pos (by omega)]; exact ⟨_, rfl⟩
    have hp : parseToksM layoutDate {} (pad4 y.natAbs ++ '-' :: (twoText (m + 1) ++ c! "-01")) = .inr (.bad (c! "01") (twoText (m + 1) ++ c! "-01")) := by
      obtain ⟨v, hv⟩ := ht
      rw [hv]
      unfold layoutDate
      simp only [parseToksM]
      rw [parseTok_year4 _ (by omega)]
      have hg : ∀ u, getnum true ('-' :: u) = none := by
        intro u
        rcases u with _ | ⟨a, u⟩ <;> simp [getnum, show isDig '-' = false from rfl]
      simp [parseTok, hg, tokFault, Tok.text]
    rw [hn]
    unfold timeParseM
    rw [hp]
    simp only
    rw [timeError_cannot (bare_append (bare_all_digits (pad4_all _)) (bare_rest _)) (bare_append (bare_two _) (by decide)) (by decide)]
    rfl

theorem days_complaint_exists {y m : Int} (h : 9999 < y.natAbs ∨ m < 0) : ∃ w, DaysComplaint y m w := by
  by_cases hl : y = -2 ^ 63
  · exact ⟨_, .least hl⟩
  · by_cases hy : 9999 < y.natAbs
    · exact ⟨_, .year hy hl⟩
    · by_cases hm : m = -1
      · exact ⟨_, .zero (by omega) hm⟩
      · exact ⟨_, .negative (by omega) (by omega)⟩

theorem days_says_iff {y m : Int} {w : Str} (h1 : -2 ^ 63 ≤ y) (h2 : y < 2 ^ 63) : daysInMonthM y m = .says w ↔ DaysComplaint y m w := by
  refine ⟨fun h => ?_, days_says h1 h2⟩
  have k := forget_says h
  rw [daysInMonthM_forget] at k
  cases (C69_days h1 h2 _).1 k with
  | error k =>
    obtain ⟨u, hu⟩ := days_complaint_exists k
    rw [days_says h1 h2 hu] at h
    injection h with h
    injection h with _ h
    exact h ▸ hu

end EDTF
