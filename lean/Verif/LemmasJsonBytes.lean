/- The scanner of JSON on bytes and on characters. -/
import Verif.JsonBytes
import Verif.SpecJsonBytes
import Verif.PropsJsonText
import Verif.PropsTimeBytes2
import Verif.LemmasBytesDirect
namespace EDTF
open Spec

/-- A byte of ASCII is a character; the others are part of one that is not, or stand alone. -/
theorem bytes_step (x : UInt8) (rest : Bytes) :
    (x.toNat < 0x80 ∧ runes (x :: rest) = Char.ofNat x.toNat :: runes rest) ∨
    (0x80 ≤ x.toNat ∧ ∃ c u w, x :: rest = u ++ w ∧ u ≠ [] ∧ (∀ y ∈ u, 0x80 ≤ y.toNat) ∧ runes (x :: rest) = c :: runes w ∧ 0x80 ≤ c.toNat) := by
  by_cases hx : x.toNat < 0x80
  · left
    refine ⟨hx, runes_cons ?_⟩
    unfold decodeRune
    rw [if_pos hx]
  · right
    refine ⟨by omega, ?_⟩
    cases e : decodeRune x rest with
    | none => exact ⟨runeError, [x], rest, rfl, by simp, by simp; omega, runes_bad e, by decide⟩
    | some p =>
      obtain ⟨c, r⟩ := p
      have hs := decode_split e
      rw [show encode [c] = encodeRune c by simp [encode]] at hs
      have hc : 0x80 ≤ c.toNat := by
        apply Nat.le_of_not_lt
        intro k
        unfold encodeRune at hs
        rw [if_pos k] at hs
        injection hs with h _
        rw [h] at hx
        apply hx
        show c.toNat % 256 < 0x80
        omega
      exact ⟨c, encodeRune c, r, hs, rune_some c, high_bytes hc, runes_cons e, hc⟩

/-- Bytes as characters, and the text they are read as. -/
inductive Pair : Str → Str → Prop
  | mk (b : Bytes) : Pair (byteChars b) (runes b)

theorem pair_cases {s t : Str} (h : Pair s t) : (s = [] ∧ t = []) ∨ (∃ c s' t', s = c :: s' ∧ t = c :: t' ∧ c.toNat < 0x80 ∧ Pair s' t') ∨
    ∃ c d s' t', s = c :: s' ∧ t = d :: t' ∧ 0x80 ≤ c.toNat ∧ 0x80 ≤ d.toNat := by
  cases h with
  | mk b =>
    cases b with
    | nil => exact .inl ⟨rfl, rfl⟩
    | cons x rest =>
      right
      rcases bytes_step x rest with ⟨hx, e⟩ | ⟨hx, c, u, w, _, _, _, e, hc⟩
      · exact .inl ⟨_, _, _, rfl, e, by rw [byteChar_nat]; exact hx, .mk rest⟩
      · exact .inr ⟨_, c, _, _, rfl, e, by rw [byteChar_nat]; exact hx, hc⟩

inductive OptPair : Option Str → Option Str → Prop
  | none : OptPair none none
  | some {s t : Str} (h : Pair s t) : OptPair (some s) (some t)

inductive Same {α β : Type} (Q : α → β → Prop) : Option (α × Str) → Option (β × Str) → Prop
  | none : Same Q none none
  | some {a : α} {a' : β} {s t : Str} (q : Q a a') (h : Pair s t) : Same Q (some (a, s)) (some (a', t))

theorem same_map {α β γ δ : Type} {Q : α → β → Prop} {R : γ → δ → Prop} {f : α → γ} {g : β → δ} (hq : ∀ a b, Q a b → R (f a) (g b))
    {x : Option (α × Str)} {y : Option (β × Str)} (h : Same Q x y) : Same R (x.map fun p => (f p.1, p.2)) (y.map fun p => (g p.1, p.2)) := by
  cases h with
  | none => exact .none
  | some q h => exact .some (hq _ _ q) h

theorem pair_nil : Pair [] [] := .mk []

theorem high_no_space {c : Char} (h : 0x80 ≤ c.toNat) : isJsonSpace c = false := by
  unfold isJsonSpace
  have h1 : c ≠ ' ' := by rintro rfl; exact absurd h (by decide)
  simp [h1]
  omega

theorem high_no_dig {c : Char} (h : 0x80 ≤ c.toNat) : isDig c = false := by
  cases e : isDig c with
  | false => rfl
  | true => exact absurd (bare_low (bare_dig e)) (by omega)

theorem high_ne {c d : Char} (h : 0x80 ≤ c.toNat) (hd : d.toNat < 0x80) : c ≠ d := by rintro rfl; omega

theorem skip_pair {s t : Str} (h : Pair s t) : Pair (skipSpace s) (skipSpace t) := by
  induction s generalizing t with
  | nil =>
    rcases pair_cases h with ⟨-, rfl⟩ | ⟨c, s', t', e, _⟩ | ⟨c, d, s', t', e, _⟩
    · exact pair_nil
    · cases e
    · cases e
  | cons c s ih =>
    rcases pair_cases h with ⟨e, _⟩ | ⟨c', s', t', e, rfl, hc, hp⟩ | ⟨c', d, s', t', e, rfl, hc, hd⟩
    · cases e
    · injection e with e1 e2
      subst e1; subst e2
      unfold skipSpace
      by_cases k : isJsonSpace c = true
      · rw [if_pos k, if_pos k]; exact ih hp
      · rw [if_neg k, if_neg k]; exact h
    · injection e with e1 e2
      subst e1; subst e2
      unfold skipSpace
      rw [high_no_space hc, high_no_space hd]
      exact h

theorem digits_pair {s t : Str} (h : Pair s t) : (spanDigits s).1 = (spanDigits t).1 ∧ Pair (spanDigits s).2 (spanDigits t).2 := by
  induction s generalizing t with
  | nil =>
    rcases pair_cases h with ⟨-, rfl⟩ | ⟨c, s', t', e, _⟩ | ⟨c, d, s', t', e, _⟩
    · exact ⟨rfl, pair_nil⟩
    · cases e
    · cases e
  | cons c s ih =>
    rcases pair_cases h with ⟨e, _⟩ | ⟨c', s', t', e, rfl, hc, hp⟩ | ⟨c', d, s', t', e, rfl, hc, hd⟩
    · cases e
    · injection e with e1 e2
      subst e1; subst e2
      unfold spanDigits
      by_cases k : isDig c = true
      · rw [if_pos k, if_pos k]; exact ⟨by rw [(ih hp).1], (ih hp).2⟩
      · rw [if_neg k, if_neg k]; exact ⟨rfl, h⟩
    · injection e with e1 e2
      subst e1; subst e2
      unfold spanDigits
      rw [high_no_dig hc, high_no_dig hd]
      exact ⟨rfl, h⟩

theorem int_pair {s t : Str} (h : Pair s t) : Same Eq (scanInt s) (scanInt t) := by
  rcases pair_cases h with ⟨rfl, rfl⟩ | ⟨c, s', t', rfl, rfl, hc, hp⟩ | ⟨c, d, s', t', rfl, rfl, hc, hd⟩
  · exact .none
  · unfold scanInt
    simp only
    by_cases k : c = '0'
    · rw [if_pos k, if_pos k]; exact .some rfl hp
    · rw [if_neg k, if_neg k]
      by_cases k : isDig c = true
      · rw [if_pos k, if_pos k]; exact .some (digits_pair h).1 (digits_pair h).2
      · rw [if_neg k, if_neg k]; exact .none
  · unfold scanInt
    simp only
    rw [if_neg (high_ne hc (by decide)), if_neg (high_ne hd (by decide)), high_no_dig hc, high_no_dig hd]
    exact .none

theorem frac_pair {s t : Str} (h : Pair s t) : Same Eq (scanFrac s) (scanFrac t) := by
  rcases pair_cases h with ⟨rfl, rfl⟩ | ⟨c, s', t', rfl, rfl, hc, hp⟩ | ⟨c, d, s', t', rfl, rfl, hc, hd⟩
  · exact .some rfl pair_nil
  · unfold scanFrac
    simp only
    by_cases k : c = '.'
    · rw [if_pos k, if_pos k, (digits_pair hp).1]
      by_cases k : (spanDigits t').1.isEmpty = true
      · rw [if_pos k, if_pos k]; exact .none
      · rw [if_neg k, if_neg k]; exact .some rfl (digits_pair hp).2
    · rw [if_neg k, if_neg k]; exact .some rfl h
  · unfold scanFrac
    simp only
    rw [if_neg (high_ne hc (by decide)), if_neg (high_ne hd (by decide))]
    exact .some rfl h

theorem expDigits_pair (pre : Str) {s t : Str} (h : Pair s t) : Same Eq (scanExpDigits pre s) (scanExpDigits pre t) := by
  unfold scanExpDigits
  rw [(digits_pair h).1]
  by_cases k : (spanDigits t).1.isEmpty = true
  · rw [if_pos k, if_pos k]; exact .none
  · rw [if_neg k, if_neg k]; exact .some rfl (digits_pair h).2

theorem exp_pair {s t : Str} (h : Pair s t) : Same Eq (scanExp s) (scanExp t) := by
  rcases pair_cases h with ⟨rfl, rfl⟩ | ⟨c, s', t', rfl, rfl, hc, hp⟩ | ⟨c, d, s', t', rfl, rfl, hc, hd⟩
  · exact .some rfl pair_nil
  · unfold scanExp
    simp only
    by_cases k : c = 'e' ∨ c = 'E'
    · rw [if_pos k, if_pos k]
      rcases pair_cases hp with ⟨rfl, rfl⟩ | ⟨g, s, t, rfl, rfl, hg, hq⟩ | ⟨g, g', s, t, rfl, rfl, hg, hg'⟩
      · exact .none
      · simp only
        by_cases k : g = '+' ∨ g = '-'
        · rw [if_pos k, if_pos k]; exact expDigits_pair _ hq
        · rw [if_neg k, if_neg k]; exact expDigits_pair _ hp
      · simp only
        rw [if_neg (by rintro (e | e) <;> exact high_ne hg (by decide) e), if_neg (by rintro (e | e) <;> exact high_ne hg' (by decide) e)]
        exact expDigits_pair _ hp
    · rw [if_neg k, if_neg k]; exact .some rfl h
  · unfold scanExp
    simp only
    rw [if_neg (by rintro (e | e) <;> exact high_ne hc (by decide) e), if_neg (by rintro (e | e) <;> exact high_ne hd (by decide) e)]
    exact .some rfl h

theorem unsigned_pair {s t : Str} (h : Pair s t) : Same Eq (scanUnsigned s) (scanUnsigned t) := by
  unfold scanUnsigned
  have h1 := int_pair h
  generalize scanInt s = x at *
  generalize scanInt t = y at *
  cases h1 with
  | none => exact .none
  | @some i i' s t q h =>
    subst q
    show Same Eq ((scanFrac s).bind _) ((scanFrac t).bind _)
    have h2 := frac_pair h
    generalize scanFrac s = x at *
    generalize scanFrac t = y at *
    cases h2 with
    | none => exact .none
    | @some i i' s t q h =>
      subst q
      show Same Eq ((scanExp s).bind _) ((scanExp t).bind _)
      have h3 := exp_pair h
      generalize scanExp s = x at *
      generalize scanExp t = y at *
      cases h3 with
      | none => exact .none
      | some q h => subst q; exact .some rfl h

theorem number_pair {s t : Str} (h : Pair s t) : Same Eq (scanNumber s) (scanNumber t) := by
  rcases pair_cases h with ⟨rfl, rfl⟩ | ⟨c, s', t', rfl, rfl, hc, hp⟩ | ⟨c, d, s', t', rfl, rfl, hc, hd⟩
  · exact .none
  · unfold scanNumber
    simp only
    by_cases k : c = '-'
    · rw [if_pos k, if_pos k]
      exact same_map (f := fun p => '-' :: p) (g := fun p => '-' :: p) (by rintro _ _ rfl; rfl) (unsigned_pair hp)
    · rw [if_neg k, if_neg k]; exact unsigned_pair h
  · unfold scanNumber
    simp only
    rw [if_neg (high_ne hc (by decide)), if_neg (high_ne hd (by decide))]
    exact unsigned_pair h

theorem expect_pair {p : Str} (hp : ∀ c ∈ p, c.toNat < 0x80) {s t : Str} (h : Pair s t) : OptPair (expect p s) (expect p t) := by
  induction p generalizing s t with
  | nil => exact .some h
  | cons a p ih =>
    rcases pair_cases h with ⟨rfl, rfl⟩ | ⟨c, s', t', rfl, rfl, hc, hq⟩ | ⟨c, d, s', t', rfl, rfl, hc, hd⟩
    · exact .none
    · unfold expect
      by_cases k : a = c
      · rw [if_pos k, if_pos k]; exact ih (fun c hc => hp c (by simp [hc])) hq
      · rw [if_neg k, if_neg k]; exact .none
    · unfold expect
      rw [if_neg (fun e => high_ne hc (hp a (by simp)) e.symm), if_neg (fun e => high_ne hd (hp a (by simp)) e.symm)]
      exact .none

/-! ### Strings -/

/-- What follows the closing quote. -/
def afterString (s : Str) : Option Str := (scanString s).map (·.2)

/-- A hexadecimal digit, and what follows. -/
def afterHex : Str → Option Str
  | [] => none
  | c :: s => if (hexVal c).isSome then some s else none

theorem after_nil : afterString [] = none := rfl
theorem after_quote (s : Str) : afterString ('"' :: s) = some s := by unfold afterString; rw [scanString]; rfl

theorem after_plain {c : Char} (h1 : c ≠ '"') (h2 : c ≠ '\\') (s : Str) : afterString (c :: s) = if c.toNat < 32 then none else afterString s := by
  unfold afterString
  by_cases h : c.toNat < 32
  · rw [if_pos h]
    unfold scanString
    split
    · rfl
    · rename_i e; injection e with e _; exact absurd e h1
    · rename_i e; injection e with e _; exact absurd e h2
    · rename_i e; injection e with e _; exact absurd e h2
    · rename_i e; injection e with e _
      rw [if_pos (.inr (by rw [← e]; exact h))]; rfl
  · rw [if_neg h, scanString_plain h1 h2 (by omega)]
    cases scanString s <;> rfl

theorem after_end : afterString ['\\'] = none := by rfl

theorem after_esc {e : Char} (he : e ≠ 'u') (s : Str) : afterString ('\\' :: e :: s) = if (simpleEsc e).isSome then afterString s else none := by
  unfold afterString
  cases h : simpleEsc e with
  | some x =>
    rw [scanString_simple he h]
    cases scanString s <;> rfl
  | none =>
    have : scanString ('\\' :: e :: s) = none := by
      unfold scanString
      split
      · rfl
      · rename_i k; injection k with k _; exact absurd k (by decide)
      · rename_i k; injection k with _ k; injection k with k _; exact absurd k he
      · rename_i k; injection k with _ k; injection k with k _; rw [← k, h]
      · rename_i k1 k2 k; injection k with k _
        rw [if_pos (.inl k.symm)]
    rw [this]
    rfl

theorem hex_cons (a : Char) (s : Str) (f : Str → Option Str) : (afterHex (a :: s)).bind f = if (hexVal a).isSome then f s else none := by
  unfold afterHex
  simp only
  cases hexVal a <;> rfl

theorem hex_nil (f : Str → Option Str) : (afterHex []).bind f = none := rfl

theorem after_u (s : Str) : afterString ('\\' :: 'u' :: s) = (afterHex s).bind fun s => (afterHex s).bind fun s => (afterHex s).bind fun s => (afterHex s).bind afterString := by
  have hu : simpleEsc 'u' = none := by decide
  match s with
  | [] => rfl
  | [a] =>
    rw [hex_cons, hex_nil, ite_self]
    simp [afterString, scanString, hu]
  | [a, b] =>
    rw [hex_cons, hex_cons, hex_nil, ite_self, ite_self]
    simp [afterString, scanString, hu]
  | [a, b, c] =>
    rw [hex_cons, hex_cons, hex_cons, hex_nil, ite_self, ite_self, ite_self]
    simp [afterString, scanString, hu]
  | a :: b :: c :: d :: s =>
    rw [hex_cons, hex_cons, hex_cons, hex_cons]
    unfold afterString
    rw [scanString]
    unfold hex4
    cases hexVal a <;> cases hexVal b <;> cases hexVal c <;> cases hexVal d <;> first | rfl | (cases scanString s <;> rfl)

theorem hex_pair {s t : Str} (h : Pair s t) : OptPair (afterHex s) (afterHex t) := by
  have high : ∀ c : Char, 0x80 ≤ c.toNat → hexVal c = none := by
    intro c hc
    unfold hexVal
    rw [high_no_dig hc, if_neg (by decide), if_neg (by omega), if_neg (by omega)]
  rcases pair_cases h with ⟨rfl, rfl⟩ | ⟨c, s', t', rfl, rfl, hc, hp⟩ | ⟨c, d, s', t', rfl, rfl, hc, hd⟩
  · exact .none
  · unfold afterHex
    simp only
    cases hexVal c with
    | none => exact .none
    | some _ => exact .some hp
  · unfold afterHex
    simp only
    rw [high c hc, high d hd]
    exact .none

theorem bind_pair {x y : Option Str} {f : Str → Option Str} (h : OptPair x y) (hf : ∀ s t, x = some s → y = some t → Pair s t → OptPair (f s) (f t)) :
    OptPair (x.bind f) (y.bind f) := by
  cases h with
  | none => exact .none
  | some h => exact hf _ _ rfl rfl h

theorem afterHex_len {s t : Str} (h : afterHex s = some t) : t.length < s.length := by
  cases s with
  | nil => cases h
  | cons c s =>
    unfold afterHex at h
    simp only at h
    by_cases k : (hexVal c).isSome = true
    · rw [if_pos k] at h; injection h with h; subst h; simp
    · rw [if_neg k] at h; cases h

theorem after_high {u : Bytes} (hu : ∀ y ∈ u, 0x80 ≤ y.toNat) (s : Str) : afterString (byteChars u ++ s) = afterString s := by
  induction u with
  | nil => rfl
  | cons x u ih =>
    have hx := hu x (by simp)
    have hn := byteChar_nat x
    show afterString (Char.ofNat x.toNat :: (byteChars u ++ s)) = _
    rw [after_plain (high_ne (by omega) (by decide)) (high_ne (by omega) (by decide)), if_neg (by omega)]
    exact ih fun y hy => hu y (by simp [hy])

theorem after_pair : ∀ (n : Nat) {s t : Str}, s.length ≤ n → Pair s t → OptPair (afterString s) (afterString t) := by
  intro n
  induction n with
  | zero =>
    intro s t hn h
    have : s = [] := List.length_eq_zero_iff.1 (by omega)
    subst this
    rcases pair_cases h with ⟨-, rfl⟩ | ⟨c, s', t', e, _⟩ | ⟨c, d, s', t', e, _⟩
    · exact .none
    · cases e
    · cases e
  | succ n ih =>
    intro s t hn h
    rcases pair_cases h with ⟨rfl, rfl⟩ | ⟨c, s', t', rfl, rfl, hc, hp⟩ | ⟨c, d, s', t', e, e', hc, hd⟩
    · exact .none
    · simp only [List.length_cons] at hn
      by_cases k1 : c = '"'
      · subst k1; rw [after_quote, after_quote]; exact .some hp
      by_cases k2 : c = '\\'
      · subst k2
        rcases pair_cases hp with ⟨rfl, rfl⟩ | ⟨e, s, t, rfl, rfl, he, hq⟩ | ⟨e, e', s, t, rfl, rfl, he, he'⟩
        · exact .none
        · simp only [List.length_cons] at hn
          by_cases k3 : e = 'u'
          · subst k3
            rw [after_u, after_u]
            refine bind_pair (hex_pair hq) fun a a' h1 _ p1 => bind_pair (hex_pair p1) fun b b' h2 _ p2 => bind_pair (hex_pair p2) fun c c' h3 _ p3 =>
              bind_pair (hex_pair p3) fun d d' h4 _ p4 => ih ?_ p4
            have := afterHex_len h1; have := afterHex_len h2; have := afterHex_len h3; have := afterHex_len h4
            omega
          · rw [after_esc k3, after_esc k3]
            cases simpleEsc e with
            | none => exact .none
            | some _ => exact ih (by omega) hq
        · have none : ∀ x : Char, 0x80 ≤ x.toNat → simpleEsc x = none := by
            intro x hx
            unfold simpleEsc
            rw [if_neg (high_ne hx (by decide)), if_neg (high_ne hx (by decide)), if_neg (high_ne hx (by decide)), if_neg (high_ne hx (by decide)),
              if_neg (high_ne hx (by decide)), if_neg (high_ne hx (by decide)), if_neg (high_ne hx (by decide)), if_neg (high_ne hx (by decide))]
          rw [after_esc (high_ne he (by decide)), after_esc (high_ne he' (by decide)), none e he, none e' he']
          exact .none
      · rw [after_plain k1 k2, after_plain k1 k2]
        by_cases k3 : c.toNat < 32
        · rw [if_pos k3, if_pos k3]; exact .none
        · rw [if_neg k3, if_neg k3]; exact ih (by omega) hp
    · cases h with
      | mk b =>
        cases b with
        | nil => cases e
        | cons x rest =>
          rcases bytes_step x rest with ⟨hx, e1⟩ | ⟨hx, c', u, w, hb, hu, hh, e1, hc'⟩
          · injection e with e2 _
            rw [← e2] at hc
            have hc : 128 ≤ (Char.ofNat x.toNat).toNat := hc
            have := byteChar_nat x
            omega
          · rw [e1, hb]
            have hl : (byteChars w).length < (byteChars (x :: rest)).length := by
              rw [hb]
              unfold byteChars
              have : 0 < u.length := List.length_pos_iff.2 hu
              simp; omega
            rw [show byteChars (u ++ w) = byteChars u ++ byteChars w by unfold byteChars; simp, after_high hh,
              after_plain (high_ne hc' (by decide)) (high_ne hc' (by decide)), if_neg (by omega)]
            exact ih (by omega) (.mk w)

/-- The bytes of characters that stand for bytes. -/
def unbyte (s : Str) : Bytes := s.map fun c => .ofNat c.toNat

theorem unbyte_chars (b : Bytes) : unbyte (byteChars b) = b := by
  unfold unbyte byteChars
  rw [List.map_map]
  conv => rhs; rw [← List.map_id b]
  apply List.map_congr_left
  intro x _
  show UInt8.ofNat (Char.ofNat x.toNat).toNat = x
  rw [byteChar_nat, UInt8.ofNat_toNat]

theorem string_pair {s t : Str} (h : Pair s t) : Same (fun p p' => p' = runes (unbyte p)) (scanString s) (scanString t) := by
  have k := after_pair _ (Nat.le_refl _) h
  unfold afterString at k
  cases h with
  | mk b =>
    cases e : scanString (byteChars b) with
    | none =>
      rw [e] at k
      cases e' : scanString (runes b) with
      | none => exact .none
      | some p => rw [e'] at k; cases k
    | some p =>
      rw [e] at k
      cases e' : scanString (runes b) with
      | none => rw [e'] at k; cases k
      | some p' =>
        rw [e'] at k
        obtain ⟨p, s⟩ := p
        obtain ⟨p', t⟩ := p'
        have h1 := (scan_inv _ _ _ e).1
        have h2 := (scan_inv _ _ _ e').1
        simp only [Option.map_some] at k
        generalize hs : s = s' at k
        generalize ht : t = t' at k
        cases k with
        | some k =>
          subst hs; subst ht
          refine .some ?_ k
          generalize hs : s = s' at *
          generalize ht : t = t' at *
          cases k with
          | mk r =>
            have hb : b = unbyte p ++ 0x22 :: r := by
              rw [← unbyte_chars b, h1]
              show List.map _ (p ++ '"' :: byteChars r) = _
              rw [List.map_append, List.map_cons]
              show unbyte p ++ 0x22 :: unbyte (byteChars r) = _
              rw [unbyte_chars]
            have h3 : runes b = runes (unbyte p) ++ '"' :: runes r := by
              rw [hb, runes_two (newRune_ascii (by decide)) _ _ (Nat.le_refl _)]
              congr 1
            rw [h3] at h2
            exact (List.append_cancel_right h2).symm

end EDTF
