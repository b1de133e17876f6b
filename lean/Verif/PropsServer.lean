/-
Property C86: how cmd/server-wasm reads its flags, and where it listens.
-/
import Verif.SpecServer
import Verif.PropsStderr
import Verif.LemmasMessageYmd
import Verif.PropsText
namespace EDTF
open Spec

/-! ### Numbers -/

theorem baseDigit_iff {b : Nat} (hb : b ≤ 36) (c : Char) (d : Nat) : BaseDigit b c d ↔ digit36 c = some d ∧ d < b := by
  constructor
  · intro h
    have tbl : ∀ d : Fin 36, (10 ≤ d.val → digit36 (Char.ofNat (87 + d.val)) = some d.val ∧ digit36 (Char.ofNat (55 + d.val)) = some d.val) ∧
        (d.val < 10 → digit36 (dig d.val) = some d.val) := by decide +kernel
    cases h with
    | dig d h hb' => exact ⟨(tbl ⟨d, by omega⟩).2 h, hb'⟩
    | small d h hb' => exact ⟨((tbl ⟨d, by omega⟩).1 h).1, hb'⟩
    | capital d h hb' => exact ⟨((tbl ⟨d, by omega⟩).1 h).2, hb'⟩
  · rintro ⟨h, hd⟩
    unfold digit36 at h
    by_cases h1 : isDig c = true
    · rw [if_pos h1] at h
      injection h with h
      have := BaseDigit.dig (b := b) d (by rw [← h]; exact digVal_lt h1) hd
      rw [← h, dig_digVal h1] at this
      rw [← h]; exact this
    · rw [if_neg h1] at h
      by_cases h2 : 97 ≤ c.toNat ∧ c.toNat ≤ 122
      · rw [if_pos h2] at h
        injection h with h
        have := BaseDigit.small (b := b) d (by omega) hd
        rw [show 87 + d = c.toNat by omega, Char.ofNat_toNat] at this
        exact this
      · rw [if_neg h2] at h
        by_cases h3 : 65 ≤ c.toNat ∧ c.toNat ≤ 90
        · rw [if_pos h3] at h
          injection h with h
          have := BaseDigit.capital (b := b) d (by omega) hd
          rw [show 55 + d = c.toNat by omega, Char.ofNat_toNat] at this
          exact this
        · rw [if_neg h3] at h; cases h

theorem baseDigit_under {b d : Nat} (hb : b ≤ 36) : ¬ BaseDigit b '_' d := by
  rw [baseDigit_iff hb]
  rintro ⟨h, -⟩
  cases h

/-- The number of a row of digits after others. -/
def valueFrom (b n : Nat) (ds : List Nat) : Nat := ds.foldl (fun acc d => b * acc + d) n

theorem valueFrom_ge {b : Nat} (hb : 1 ≤ b) (ds : List Nat) (n : Nat) : n ≤ valueFrom b n ds := by
  induction ds generalizing n with
  | nil => exact Nat.le_refl _
  | cons d ds ih =>
    have h1 := ih (b * n + d)
    have h2 : n ≤ b * n := Nat.le_mul_of_pos_left n hb
    show n ≤ valueFrom b (b * n + d) ds
    omega

theorem digits_ok {b : Nat} (hb1 : 1 ≤ b) (hb : b ≤ 36) (s : Str) (n : Nat) (u : Bool) (hn : n < 2 ^ 64) (m : Nat) (w : Bool) :
    uintDigits b n u s = .ok (m, w) ↔ ∃ ds, Scattered b ds s ∧ m = valueFrom b n ds ∧ m < 2 ^ 64 ∧ w = (u || decide ('_' ∈ s)) := by
  induction s generalizing n u with
  | nil =>
    rw [uintDigits]
    constructor
    · intro h
      injection h with h; injection h with h1 h2
      exact ⟨[], .nil, h1.symm, h1 ▸ hn, by simp [h2]⟩
    · rintro ⟨ds, h, rfl, -, rfl⟩
      cases h
      simp [valueFrom]
  | cons c s ih =>
    rw [uintDigits]
    by_cases hc : c = '_'
    · subst hc
      rw [if_pos rfl, ih n true hn]
      constructor
      · rintro ⟨ds, h, h1, h2, h3⟩
        exact ⟨ds, .under ds s h, h1, h2, by simp [h3]⟩
      · rintro ⟨ds, h, h1, h2, h3⟩
        cases h with
        | digit _ d h => exact absurd h (baseDigit_under hb)
        | under _ _ h => exact ⟨ds, h, h1, h2, by simp [h3]⟩
    · rw [if_neg hc]
      have hu : ('_' ∈ c :: s) = ('_' ∈ s) := by simp [Ne.symm hc]
      cases e : digit36 c with
      | none =>
        simp only
        constructor
        · intro h; cases h
        · rintro ⟨ds, h, -⟩
          cases h with
          | digit _ d h => rw [((baseDigit_iff hb c d).1 h).1] at e; cases e
          | under _ _ h => exact absurd rfl hc
      | some d =>
        simp only
        by_cases hd : b ≤ d
        · rw [if_pos hd]
          constructor
          · intro h; cases h
          · rintro ⟨ds, h, -⟩
            cases h with
            | digit _ d' h =>
              have := (baseDigit_iff hb c d').1 h
              rw [e] at this
              have e' := Option.some.inj this.1
              omega
            | under _ _ h => exact absurd rfl hc
        · rw [if_neg hd]
          have key : ∀ ds, Scattered b ds (c :: s) ↔ ∃ ds', ds = d :: ds' ∧ Scattered b ds' s := by
            intro ds
            constructor
            · intro h
              cases h with
              | digit _ d' h ds' _ k =>
                have := ((baseDigit_iff hb c d').1 h).1
                rw [e] at this
                injection this with this
                exact ⟨ds', by rw [this], k⟩
              | under _ _ h => exact absurd rfl hc
            · rintro ⟨ds', rfl, k⟩
              exact .digit c d ((baseDigit_iff hb c d).2 ⟨e, by omega⟩) ds' s k
          by_cases hv : 2 ^ 64 ≤ b * n + d
          · rw [if_pos hv]
            constructor
            · intro h; cases h
            · rintro ⟨ds, h, h1, h2, -⟩
              obtain ⟨ds', rfl, -⟩ := (key ds).1 h
              have := valueFrom_ge hb1 ds' (b * n + d)
              have h1 : m = valueFrom b (b * n + d) ds' := h1
              omega
          · rw [if_neg hv, ih _ u (by omega)]
            constructor
            · rintro ⟨ds, h, h1, h2, h3⟩
              exact ⟨d :: ds, (key _).2 ⟨ds, rfl, h⟩, h1, h2, by simp only [hu]; exact h3⟩
            · rintro ⟨ds, h, h1, h2, h3⟩
              obtain ⟨ds', rfl, k⟩ := (key ds).1 h
              exact ⟨ds', k, h1, h2, by simp only [hu] at h3; exact h3⟩

theorem digits_range {b : Nat} (hb : b ≤ 36) (s : Str) (n : Nat) (u : Bool) (hn : n < 2 ^ 64) :
    uintDigits b n u s = .range ↔ ∃ ds t rest, Scattered b ds t ∧ s = t ++ rest ∧ 2 ^ 64 ≤ valueFrom b n ds := by
  induction s generalizing n u with
  | nil =>
    rw [uintDigits]
    constructor
    · intro h; cases h
    · rintro ⟨ds, t, rest, h, e, hv⟩
      obtain ⟨rfl, rfl⟩ := List.nil_eq_append_iff.1 e
      cases h
      exact absurd hn (by simp only [valueFrom, List.foldl_nil] at hv; omega)
  | cons c s ih =>
    rw [uintDigits]
    by_cases hc : c = '_'
    · subst hc
      rw [if_pos rfl, ih n true hn]
      constructor
      · rintro ⟨ds, t, rest, h, rfl, hv⟩
        exact ⟨ds, '_' :: t, rest, .under ds t h, rfl, hv⟩
      · rintro ⟨ds, t, rest, h, e, hv⟩
        cases h with
        | nil => exact absurd hn (by simp only [valueFrom, List.foldl_nil] at hv; omega)
        | digit c' d h ds t k =>
          injection e with e _
          rw [← e] at h
          exact absurd h (baseDigit_under hb)
        | under ds t k => injection e with _ e; exact ⟨ds, t, rest, k, e, hv⟩
    · rw [if_neg hc]
      cases e : digit36 c with
      | none =>
        simp only
        constructor
        · intro h; cases h
        · rintro ⟨ds, t, rest, h, e1, hv⟩
          cases h with
          | nil => exact absurd hn (by simp only [valueFrom, List.foldl_nil] at hv; omega)
          | digit c' d h ds t k =>
            injection e1 with e1 _
            rw [← e1] at h
            rw [((baseDigit_iff hb c d).1 h).1] at e; cases e
          | under ds t k => injection e1 with e1 _; exact absurd e1 hc
      | some d =>
        simp only
        by_cases hd : b ≤ d
        · rw [if_pos hd]
          constructor
          · intro h; cases h
          · rintro ⟨ds, t, rest, h, e1, hv⟩
            cases h with
            | nil => exact absurd hn (by simp only [valueFrom, List.foldl_nil] at hv; omega)
            | digit c' d' h ds t k =>
              injection e1 with e1 _
              rw [← e1] at h
              have := (baseDigit_iff hb c d').1 h
              rw [e] at this
              have e' := Option.some.inj this.1
              omega
            | under ds t k => injection e1 with e1 _; exact absurd e1 hc
        · rw [if_neg hd]
          have hD : BaseDigit b c d := (baseDigit_iff hb c d).2 ⟨e, by omega⟩
          by_cases hv : 2 ^ 64 ≤ b * n + d
          · rw [if_pos hv]
            refine ⟨fun _ => ⟨[d], [c], s, .digit c d hD [] [] .nil, rfl, hv⟩, fun _ => rfl⟩
          · rw [if_neg hv, ih _ u (by omega)]
            constructor
            · rintro ⟨ds, t, rest, h, rfl, hv⟩
              exact ⟨d :: ds, c :: t, rest, .digit c d hD ds t h, rfl, hv⟩
            · rintro ⟨ds, t, rest, h, e1, hv'⟩
              cases h with
              | nil => exact absurd hn (by simp only [valueFrom, List.foldl_nil] at hv'; omega)
              | digit c' d' h ds t k =>
                injection e1 with e1 e2
                rw [← e1] at h
                have := ((baseDigit_iff hb c d').1 h).1
                rw [e] at this
                injection this with this
                rw [← this] at hv'
                exact ⟨ds, t, rest, k, e2, hv'⟩
              | under ds t k => injection e1 with e1 _; exact absurd e1 hc

/-- The digits the check of underscores knows. -/
theorem digit_seen {b d : Nat} {c : Char} (hb : b ≤ 16) {hex : Bool} (hx : 10 < b → hex = true) (h : BaseDigit b c d) :
    (isDig c || (hex && ((97 ≤ c.toNat && c.toNat ≤ 102) || (65 ≤ c.toNat && c.toNat ≤ 70)))) = true := by
  have tbl : ∀ d : Fin 16, 10 ≤ d.val → (97 ≤ (Char.ofNat (87 + d.val)).toNat && (Char.ofNat (87 + d.val)).toNat ≤ 102) = true ∧
      (65 ≤ (Char.ofNat (55 + d.val)).toNat && (Char.ofNat (55 + d.val)).toNat ≤ 70) = true := by decide +kernel
  cases h with
  | dig d h hb' => rw [isDig_dig_lt d h]; rfl
  | small d h hb' => rw [(tbl ⟨d, by omega⟩ h).1, hx (by omega)]; simp
  | capital d h hb' => rw [(tbl ⟨d, by omega⟩ h).2, hx (by omega)]; simp

/-- Underscores are in their places: `start` says that a digit or a base came before. -/
inductive Placed (b : Nat) : Bool → List Nat → Str → Prop
  | nil (start : Bool) : Placed b start [] []
  | digits (start : Bool) (ds : List Nat) (t : Str) (h : Grouped b ds t) : Placed b start ds t
  | under (ds : List Nat) (t : Str) (h : Grouped b ds t) : Placed b true ds ('_' :: t)

theorem grouped_scattered {b : Nat} {ds : List Nat} {t : Str} (h : Grouped b ds t) : Scattered b ds t := by
  induction h with
  | one c d h => exact .digit c d h [] [] .nil
  | next c d h ds t _ ih => exact .digit c d h ds t ih
  | under c d h ds t _ ih => exact .digit c d h ds _ (.under ds t ih)

theorem placed_scattered {b : Nat} {st : Bool} {ds : List Nat} {t : Str} (h : Placed b st ds t) : Scattered b ds t := by
  cases h with
  | nil => exact .nil
  | digits _ ds t h => exact grouped_scattered h
  | under ds t h => exact .under ds t (grouped_scattered h)

theorem unders_iff {b : Nat} (hb : b ≤ 16) {hex : Bool} (hx : 10 < b → hex = true) {ds : List Nat} {s : Str} (h : Scattered b ds s) :
    (underscoreLoop hex '0' s = true ↔ Placed b true ds s) ∧ (underscoreLoop hex '_' s = true ↔ Grouped b ds s) ∧
      (underscoreLoop hex '^' s = true ↔ Placed b false ds s) := by
  have nu : ¬ (isDig '_' || (hex && ((97 ≤ '_'.toNat && '_'.toNat ≤ 102) || (65 ≤ '_'.toNat && '_'.toNat ≤ 70)))) = true := by
    cases hex <;> decide
  induction h with
  | nil =>
    refine ⟨⟨fun _ => .nil _, fun _ => rfl⟩, ⟨fun h => by simp [underscoreLoop] at h, fun h => by cases h⟩, ⟨fun _ => .nil _, fun _ => rfl⟩⟩
  | digit c d h ds t k ih =>
    have hs := digit_seen hb hx h
    have hc : c ≠ '_' := by intro e; subst e; exact baseDigit_under (by omega) h
    have step : ∀ saw, underscoreLoop hex saw (c :: t) = underscoreLoop hex '0' t := fun saw => by rw [underscoreLoop, if_pos hs]
    have key : underscoreLoop hex '0' t = true ↔ Grouped b (d :: ds) (c :: t) := by
      rw [ih.1]
      constructor
      · intro p
        cases p with
        | nil => exact .one c d h
        | digits _ ds t g => exact .next c d h ds t g
        | under ds t g => exact .under c d h ds t g
      · intro g
        cases g with
        | one => exact .nil _
        | next _ _ _ _ _ g => exact .digits _ _ _ g
        | under _ _ _ _ _ g => exact .under _ _ g
    have placed : ∀ st, Placed b st (d :: ds) (c :: t) ↔ Grouped b (d :: ds) (c :: t) := by
      intro st
      constructor
      · intro p
        generalize e : c :: t = s at p
        cases p with
        | digits _ _ _ g => exact g
        | under _ _ g => injection e with e _; exact absurd e hc
      · exact .digits _ _ _
    rw [step, step, step, placed, placed]
    exact ⟨key, key, key⟩
  | under ds t k ih =>
    have noG : ¬ Grouped b ds ('_' :: t) := by
      intro g
      generalize e : '_' :: t = s at g
      cases g with
      | one c d h => injection e with e _; subst e; exact baseDigit_under (by omega) h
      | next c d h => injection e with e _; subst e; exact baseDigit_under (by omega) h
      | under c d h => injection e with e _; subst e; exact baseDigit_under (by omega) h
    refine ⟨?_, ?_, ?_⟩
    · rw [underscoreLoop, if_neg nu, if_pos rfl, if_neg (by decide), ih.2.1]
      constructor
      · exact .under ds t
      · intro p
        cases p with
        | digits _ _ _ g => exact absurd g noG
        | under _ _ g => exact g
    · rw [underscoreLoop, if_neg nu, if_pos rfl, if_pos (by decide)]
      exact ⟨fun h => (by cases h), fun g => absurd g noG⟩
    · rw [underscoreLoop, if_neg nu, if_pos rfl, if_pos (by decide)]
      constructor
      · intro h; cases h
      · intro p
        cases p with
        | digits _ _ _ g => exact absurd g noG

/-- Without underscores all is in its place. -/
theorem placed_plain {b : Nat} {ds : List Nat} {s : Str} (h : Scattered b ds s) (hu : '_' ∉ s) : Placed b false ds s := by
  have key : s = [] ∧ ds = [] ∨ Grouped b ds s := by
    induction h with
    | nil => exact .inl ⟨rfl, rfl⟩
    | digit c d h ds t k ih =>
      rcases ih (fun m => hu (List.mem_cons_of_mem _ m)) with ⟨rfl, rfl⟩ | g
      · exact .inr (.one c d h)
      · exact .inr (.next c d h ds t g)
    | under ds t k ih => exact absurd List.mem_cons_self hu
  rcases key with ⟨rfl, rfl⟩ | g
  · exact .nil _
  · exact .digits _ _ _ g

theorem placed_up {b : Nat} {ds : List Nat} {s : Str} (st : Bool) (h : Placed b false ds s) : Placed b st ds s := by
  cases h with
  | nil => exact .nil _
  | digits _ _ _ g => exact .digits _ _ _ g

theorem grouped_ne {b : Nat} {ds : List Nat} {t : Str} (h : Grouped b ds t) : t ≠ [] := by cases h <;> simp

/-- The end of ParseUint, from the base on. -/
def uintEnd (b : Nat) (full r : Str) : Num Nat :=
  match uintDigits b 0 false r with
  | .syntax => .syntax
  | .range => .range
  | .ok (n, u) => if u && !underscoreOK full then .syntax else .ok n

theorem parseUint0_eq (s : Str) : parseUint0 s = if s = [] then .syntax else uintEnd (uintBase s).1 s (uintBase s).2 := rfl

/-- Without a sign and a zero in front underscoreOK is its loop. -/
theorem underscoreOK_plain {c : Char} (h1 : c ≠ '-') (h2 : c ≠ '+') (h3 : c ≠ '0') (t : Str) : underscoreOK (c :: t) = underscoreLoop false '^' (c :: t) := by
  have : (match c :: t with | '-' :: t => t | '+' :: t => t | t => t) = c :: t := by
    split
    · rename_i e; injection e with e; exact absurd e h1
    · rename_i e; injection e with e; exact absurd e h2
    · rfl
  unfold underscoreOK
  simp only [this]
  split
  · rename_i e
    have e := this.symm.trans e
    injection e with e; exact absurd e h3
  · exact congrArg (underscoreLoop false '^') this

theorem uint_core {b : Nat} (hb1 : 1 ≤ b) (hb : b ≤ 16) {hex : Bool} (hx : 10 < b → hex = true) {full r : Str} {st : Bool}
    (hok : underscoreOK full = underscoreLoop hex (if st then '0' else '^') r) (n : Nat) :
    uintEnd b full r = .ok n ↔ ∃ ds, Placed b st ds r ∧ n = valueIn b ds ∧ n < 2 ^ 64 := by
  have hok' : ∀ ds, Scattered b ds r → (underscoreOK full = true ↔ Placed b st ds r) := by
    intro ds h
    rw [hok]
    cases st with
    | true => exact (unders_iff hb hx h).1
    | false => exact (unders_iff hb hx h).2.2
  unfold uintEnd
  cases e : uintDigits b 0 false r with
  | «syntax» =>
    simp only
    constructor
    · intro h; cases h
    · rintro ⟨ds, h, h1, h2⟩
      have := (digits_ok hb1 (by omega) r 0 false (by decide) n (false || decide ('_' ∈ r))).2 ⟨ds, placed_scattered h, h1, h2, rfl⟩
      rw [e] at this; cases this
  | range =>
    simp only
    constructor
    · intro h; cases h
    · rintro ⟨ds, h, h1, h2⟩
      have := (digits_ok hb1 (by omega) r 0 false (by decide) n (false || decide ('_' ∈ r))).2 ⟨ds, placed_scattered h, h1, h2, rfl⟩
      rw [e] at this; cases this
  | ok p =>
    obtain ⟨m, w⟩ := p
    obtain ⟨ds, h, h1, h2, h3⟩ := (digits_ok hb1 (by omega) r 0 false (by decide) m w).1 e
    simp only
    have uniq : ∀ {ds'}, Scattered b ds' r → n = valueIn b ds' → n < 2 ^ 64 → n = m := by
      intro ds' k k1 k2
      have := (digits_ok hb1 (by omega) r 0 false (by decide) n (false || decide ('_' ∈ r))).2 ⟨ds', k, k1, k2, rfl⟩
      rw [e] at this
      injection this with this; injection this with this _
      exact this.symm
    by_cases hp : Placed b st ds r
    · rw [if_neg (by rw [(hok' ds h).2 hp]; simp)]
      constructor
      · intro k
        injection k with k
        exact ⟨ds, hp, by rw [← k, h1]; rfl, by omega⟩
      · rintro ⟨ds', k, k1, k2⟩
        rw [uniq (placed_scattered k) k1 k2]
    · have hno : underscoreOK full = false := by
        cases e : underscoreOK full with
        | false => rfl
        | true => exact absurd ((hok' ds h).1 e) hp
      have hw : w = true := by
        rw [h3, Bool.false_or, decide_eq_true_eq]
        by_cases hu : '_' ∈ r
        · exact hu
        · exact absurd (placed_up st (placed_plain h hu)) hp
      rw [if_pos (by rw [hno, hw]; rfl)]
      constructor
      · intro k; cases k
      · rintro ⟨ds', k, k1, k2⟩
        have := (hok' ds' (placed_scattered k)).2 k
        rw [hno] at this; cases this

theorem uint_range {b : Nat} (hb : b ≤ 16) (full r : Str) :
    uintEnd b full r = .range ↔
    ∃ ds t rest, Scattered b ds t ∧ r = t ++ rest ∧ 2 ^ 64 ≤ valueIn b ds := by
  rw [show (∃ ds t rest, Scattered b ds t ∧ r = t ++ rest ∧ 2 ^ 64 ≤ valueIn b ds) ↔ uintDigits b 0 false r = .range from
    (digits_range (by omega) r 0 false (by decide)).symm]
  unfold uintEnd
  cases uintDigits b 0 false r with
  | «syntax» => exact ⟨fun h => (by cases h), fun h => (by cases h)⟩
  | range => exact ⟨fun _ => rfl, fun _ => rfl⟩
  | ok p =>
    simp only
    constructor
    · intro h
      split at h <;> cases h
    · intro h; cases h

/-- The letters of a base. -/
def baseLetter (x : Char) (b : Nat) : Prop := ((x = 'b' ∨ x = 'B') ∧ b = 2) ∨ ((x = 'o' ∨ x = 'O') ∧ b = 8) ∨ ((x = 'x' ∨ x = 'X') ∧ b = 16)

theorem prefix_letter {p : Str} {b : Nat} : BasePrefix p b ↔ ∃ x, baseLetter x b ∧ p = ['0', x] := by
  constructor
  · intro h
    cases h
    · exact ⟨'b', .inl ⟨.inl rfl, rfl⟩, rfl⟩
    · exact ⟨'B', .inl ⟨.inr rfl, rfl⟩, rfl⟩
    · exact ⟨'o', .inr (.inl ⟨.inl rfl, rfl⟩), rfl⟩
    · exact ⟨'O', .inr (.inl ⟨.inr rfl, rfl⟩), rfl⟩
    · exact ⟨'x', .inr (.inr ⟨.inl rfl, rfl⟩), rfl⟩
    · exact ⟨'X', .inr (.inr ⟨.inr rfl, rfl⟩), rfl⟩
  · rintro ⟨x, ⟨rfl | rfl, rfl⟩ | ⟨rfl | rfl, rfl⟩ | ⟨rfl | rfl, rfl⟩, rfl⟩ <;> constructor

theorem letter_octal {x : Char} {b d : Nat} (h : baseLetter x b) : ¬ BaseDigit 8 x d := by
  rw [baseDigit_iff (by decide)]
  rintro ⟨h1, h2⟩
  have tbl : ∀ x ∈ ['b', 'B', 'o', 'O', 'x', 'X'], ∀ d, digit36 x = some d → 8 ≤ d := by
    intro x hx d hd
    simp only [List.mem_cons, List.not_mem_nil, or_false] at hx
    have hd' := hd
    rcases hx with rfl | rfl | rfl | rfl | rfl | rfl <;> (rw [← Option.some.inj hd']; decide)
  have : x ∈ ['b', 'B', 'o', 'O', 'x', 'X'] := by
    rcases h with ⟨rfl | rfl, -⟩ | ⟨rfl | rfl, -⟩ | ⟨rfl | rfl, -⟩ <;> decide
  have := tbl x this d h1
  omega

theorem letter_unique {x : Char} {b b' : Nat} (h : baseLetter x b) (k : baseLetter x b') : b = b' := by
  rcases h with ⟨rfl | rfl, rfl⟩ | ⟨rfl | rfl, rfl⟩ | ⟨rfl | rfl, rfl⟩ <;>
    rcases k with ⟨k, rfl⟩ | ⟨k, rfl⟩ | ⟨k, rfl⟩ <;> first | rfl | exact absurd k (by decide)

theorem placed_true {b : Nat} {ds : List Nat} {r : Str} (hr : r ≠ []) : Placed b true ds r ↔ ∃ u t, (u = [] ∨ u = c! "_") ∧ r = u ++ t ∧ Grouped b ds t := by
  constructor
  · intro h
    cases h with
    | nil => exact absurd rfl hr
    | digits _ _ _ g => exact ⟨[], r, .inl rfl, rfl, g⟩
    | under _ t g => exact ⟨c! "_", t, .inr rfl, rfl, g⟩
  · rintro ⟨u, t, rfl | rfl, rfl, g⟩
    · exact .digits _ _ _ g
    · exact .under _ _ g

theorem grouped_letter {x : Char} {b : Nat} {ds : List Nat} {u r : Str} (hl : baseLetter x b) (hu : u = [] ∨ u = c! "_") {t : Str}
    (e : x :: r = u ++ t) (h : Grouped 8 ds t) : False := by
  rcases hu with rfl | rfl
  · obtain rfl : x :: r = t := e
    generalize e : x :: r = s at h
    cases h with
    | one c d h => injection e with e _; subst e; exact letter_octal hl h
    | next c d h => injection e with e _; subst e; exact letter_octal hl h
    | under c d h => injection e with e _; subst e; exact letter_octal hl h
  · injection e with e _
    subst e
    rcases hl with ⟨h | h, -⟩ | ⟨h | h, -⟩ | ⟨h | h, -⟩ <;> exact absurd h (by decide)

/-- strconv.ParseUint for base 0. -/
theorem parseUint0_iff (s : Str) : (∀ n, parseUint0 s = .ok n ↔ GoNat s n ∧ n < 2 ^ 64) ∧ (parseUint0 s = .range ↔ Oversize s) := by
  rw [parseUint0_eq]
  by_cases hs : s = []
  · subst hs
    rw [if_pos rfl]
    refine ⟨fun n => ⟨fun h => (by cases h), ?_⟩, ⟨fun h => (by cases h), ?_⟩⟩
    · rintro ⟨h, -⟩
      generalize e : ([] : Str) = s at h
      cases h with
      | zero => cases e
      | decimal ds t h => exact absurd e.symm (grouped_ne h)
      | octal => cases e
      | based p b hp => obtain ⟨x, -, rfl⟩ := prefix_letter.1 hp; cases e
    · intro h
      generalize e : ([] : Str) = s at h
      cases h with
      | decimal ds t rest h h0 hv =>
        obtain ⟨rfl, rfl⟩ := List.nil_eq_append_iff.1 e
        cases h
        exact absurd hv (by decide)
      | octal => cases e
      | based p b hp => obtain ⟨x, -, rfl⟩ := prefix_letter.1 hp; cases e
  rw [if_neg hs]
  -- a base after the zero
  by_cases hp : ∃ x b c r, baseLetter x b ∧ s = '0' :: x :: c :: r
  · obtain ⟨x, b, c, r, hl, rfl⟩ := hp
    have hb : uintBase ('0' :: x :: c :: r) = (b, c :: r) := by
      rcases hl with ⟨rfl | rfl, rfl⟩ | ⟨rfl | rfl, rfl⟩ | ⟨rfl | rfl, rfl⟩ <;> rfl
    have hok : underscoreOK ('0' :: x :: c :: r) = underscoreLoop (decide (b = 16)) (if true then '0' else '^') (c :: r) := by
      rcases hl with ⟨rfl | rfl, rfl⟩ | ⟨rfl | rfl, rfl⟩ | ⟨rfl | rfl, rfl⟩ <;> rfl
    have hb16 : 1 ≤ b ∧ b ≤ 16 ∧ (10 < b → decide (b = 16) = true) := by
      rcases hl with ⟨-, rfl⟩ | ⟨-, rfl⟩ | ⟨-, rfl⟩ <;> decide
    simp only [hb]
    refine ⟨fun n => ?_, ?_⟩
    · rw [uint_core hb16.1 hb16.2.1 hb16.2.2 hok]
      constructor
      · rintro ⟨ds, h, rfl, hn⟩
        obtain ⟨u, t, hu, e, g⟩ := (placed_true (by simp)).1 h
        refine ⟨?_, hn⟩
        have := GoNat.based ['0', x] b (prefix_letter.2 ⟨x, hl, rfl⟩) ds u t hu g
        rw [← e] at this
        exact this
      · rintro ⟨h, hn⟩
        generalize e : '0' :: x :: c :: r = s at h
        cases h with
        | zero => cases e
        | decimal ds t h h0 => rw [← e] at h0; exact absurd rfl h0
        | octal ds u t hu h => injection e with _ e; exact (grouped_letter hl hu e h).elim
        | based p b' hp ds u t hu h =>
          obtain ⟨x', hl', rfl⟩ := prefix_letter.1 hp
          injection e with _ e; injection e with e1 e
          subst e1
          obtain rfl := letter_unique hl hl'
          exact ⟨ds, (placed_true (by simp)).2 ⟨u, t, hu, e, h⟩, rfl, hn⟩
    · rw [uint_range hb16.2.1]
      constructor
      · rintro ⟨ds, t, rest, h, e, hv⟩
        have := Oversize.based ['0', x] b (prefix_letter.2 ⟨x, hl, rfl⟩) ds t rest h hv
        rw [← e] at this
        exact this
      · intro h
        generalize e : '0' :: x :: c :: r = s at h
        cases h with
        | decimal ds t rest h h0 hv =>
          rcases t with _ | ⟨a, t⟩
          · cases h; exact absurd hv (by decide)
          · injection e with e _; rw [← e] at h0; exact absurd rfl h0
        | octal ds t rest h hv =>
          injection e with _ e
          exfalso
          cases h with
          | nil => exact absurd hv (by decide)
          | digit c' d h => injection e with e _; rw [← e] at h; exact letter_octal hl h
          | under => injection e with e _; subst e; rcases hl with ⟨h | h, -⟩ | ⟨h | h, -⟩ | ⟨h | h, -⟩ <;> exact absurd h (by decide)
        | based p b' hp ds t rest h hv =>
          obtain ⟨x', hl', rfl⟩ := prefix_letter.1 hp
          injection e with _ e; injection e with e1 e
          subst e1
          obtain rfl := letter_unique hl hl'
          exact ⟨ds, t, rest, h, e, hv⟩
  -- no base
  have noP : ∀ {p b}, BasePrefix p b → ∀ {w : Str}, s = p ++ w → w ≠ [] → False := by
    intro p b hp' w e hw
    obtain ⟨x, hl, rfl⟩ := prefix_letter.1 hp'
    rcases w with _ | ⟨c, r⟩
    · exact hw rfl
    · exact hp ⟨x, b, c, r, hl, e⟩
  have noG : ∀ {p b}, BasePrefix p b → ∀ {u t : Str} {ds}, s = p ++ (u ++ t) → Grouped b ds t → False := by
    intro p b hp' u t ds e g
    refine noP hp' e ?_
    intro h
    exact grouped_ne g (List.append_eq_nil_iff.1 h).2
  have noO : ∀ {p b}, BasePrefix p b → ∀ {t rest : Str} {ds}, s = p ++ (t ++ rest) → Scattered b ds t → 2 ^ 64 ≤ valueIn b ds → False := by
    intro p b hp' t rest ds e g hv
    refine noP hp' e ?_
    intro h
    obtain ⟨rfl, -⟩ := List.append_eq_nil_iff.1 h
    cases g
    exact absurd hv (by simp [valueIn])
  by_cases h0 : ∃ r, s = '0' :: r
  · obtain ⟨r, rfl⟩ := h0
    have hb : uintBase ('0' :: r) = (8, r) := by
      rcases r with _ | ⟨x, _ | ⟨c, r⟩⟩
      · rfl
      · rfl
      · have nb : ¬ (x = 'b' ∨ x = 'B') := fun h => hp ⟨x, 2, c, r, .inl ⟨h, rfl⟩, rfl⟩
        have no : ¬ (x = 'o' ∨ x = 'O') := fun h => hp ⟨x, 8, c, r, .inr (.inl ⟨h, rfl⟩), rfl⟩
        have nx : ¬ (x = 'x' ∨ x = 'X') := fun h => hp ⟨x, 16, c, r, .inr (.inr ⟨h, rfl⟩), rfl⟩
        show (if x = 'b' ∨ x = 'B' then (2, c :: r) else if x = 'o' ∨ x = 'O' then (8, c :: r) else if x = 'x' ∨ x = 'X' then (16, c :: r) else (8, x :: c :: r)) = _
        rw [if_neg nb, if_neg no, if_neg nx]
    have hok : (∃ x, r = [x] ∧ ∃ b, baseLetter x b) ∨ underscoreOK ('0' :: r) = underscoreLoop false (if true then '0' else '^') r := by
      rcases r with _ | ⟨x, r⟩
      · exact .inr rfl
      · by_cases hx : ∃ b, baseLetter x b
        · rcases r with _ | ⟨c, r⟩
          · exact .inl ⟨x, rfl, hx⟩
          · obtain ⟨b, hx⟩ := hx; exact absurd ⟨x, b, c, r, hx, rfl⟩ hp
        · right
          show (if x = 'b' ∨ x = 'B' ∨ x = 'o' ∨ x = 'O' ∨ x = 'x' ∨ x = 'X' then underscoreLoop (x = 'x' ∨ x = 'X') '0' r
            else underscoreLoop false '^' ('0' :: x :: r)) = _
          rw [if_neg]
          · rfl
          · intro h
            apply hx
            rcases h with h | h | h | h | h | h
            · exact ⟨2, .inl ⟨.inl h, rfl⟩⟩
            · exact ⟨2, .inl ⟨.inr h, rfl⟩⟩
            · exact ⟨8, .inr (.inl ⟨.inl h, rfl⟩)⟩
            · exact ⟨8, .inr (.inl ⟨.inr h, rfl⟩)⟩
            · exact ⟨16, .inr (.inr ⟨.inl h, rfl⟩)⟩
            · exact ⟨16, .inr (.inr ⟨.inr h, rfl⟩)⟩
    simp only [hb]
    refine ⟨fun n => ?_, ?_⟩
    · have spec : (GoNat ('0' :: r) n ∧ n < 2 ^ 64) ↔ ∃ ds, Placed 8 true ds r ∧ n = valueIn 8 ds ∧ n < 2 ^ 64 := by
        constructor
        · rintro ⟨h, hn⟩
          generalize e : '0' :: r = s at h
          cases h with
          | zero => injection e with _ e; subst e; exact ⟨[], .nil _, rfl, hn⟩
          | decimal ds t h h0 => rw [← e] at h0; exact absurd rfl h0
          | octal ds u t hu h =>
            injection e with _ e
            subst e
            exact ⟨ds, (placed_true (by intro h'; exact grouped_ne h (List.append_eq_nil_iff.1 h').2)).2 ⟨u, t, hu, rfl, h⟩, rfl, hn⟩
          | based p b hp' ds u t hu h => exact (noG hp' e h).elim
        · rintro ⟨ds, h, rfl, hn⟩
          refine ⟨?_, hn⟩
          by_cases hr : r = []
          · subst hr
            cases h with
            | nil => exact .zero
            | digits _ _ _ g => exact absurd rfl (grouped_ne g)
          · obtain ⟨u, t, hu, rfl, g⟩ := (placed_true hr).1 h
            exact .octal ds u t hu g
      rw [spec]
      rcases hok with ⟨x, rfl, b, hl⟩ | hok
      · have hsyn : uintDigits 8 0 false [x] = .syntax := by
          rcases hl with ⟨rfl | rfl, -⟩ | ⟨rfl | rfl, -⟩ | ⟨rfl | rfl, -⟩ <;> rfl
        simp only [uintEnd, hsyn]
        constructor
        · intro h; cases h
        · rintro ⟨ds, h, -⟩
          obtain ⟨u, t, hu, e, g⟩ := (placed_true (by simp)).1 h
          exact (grouped_letter hl hu e g).elim
      · exact uint_core (by decide) (by decide) (by decide) hok n
    · rw [uint_range (by decide)]
      constructor
      · rintro ⟨ds, t, rest, h, e, hv⟩
        have e : r = t ++ rest := e
        rw [e]
        exact .octal ds t rest h hv
      · intro h
        generalize e : '0' :: r = s at h
        cases h with
        | decimal ds t rest h h0 hv =>
          rcases t with _ | ⟨a, t⟩
          · cases h; exact absurd hv (by decide)
          · injection e with e _; rw [← e] at h0; exact absurd rfl h0
        | octal ds t rest h hv => injection e with _ e; exact ⟨ds, t, rest, h, e, hv⟩
        | based p b hp' ds t rest h hv => exact (noO hp' e h hv).elim
  · have hb : uintBase s = (10, s) := by
      unfold uintBase
      split
      · exact absurd ⟨_, rfl⟩ h0
      · exact absurd ⟨_, rfl⟩ h0
      · rfl
    have hd0 : s.head? ≠ some '0' := by
      intro h
      rcases s with _ | ⟨a, s⟩
      · cases h
      · injection h with h; subst h; exact h0 ⟨s, rfl⟩
    have hsign : (∃ c t, s = c :: t ∧ (c = '+' ∨ c = '-')) ∨ underscoreOK s = underscoreLoop false (if false then '0' else '^') s := by
      by_cases hg : ∃ c t, s = c :: t ∧ (c = '+' ∨ c = '-')
      · exact .inl hg
      · right
        rcases s with _ | ⟨c, t⟩
        · exact absurd rfl hs
        · exact underscoreOK_plain (fun h => hg ⟨c, t, rfl, .inr h⟩) (fun h => hg ⟨c, t, rfl, .inl h⟩) (fun h => h0 ⟨t, by rw [h]⟩) t
    simp only [hb]
    refine ⟨fun n => ?_, ?_⟩
    · have spec : (GoNat s n ∧ n < 2 ^ 64) ↔ ∃ ds, Placed 10 false ds s ∧ n = valueIn 10 ds ∧ n < 2 ^ 64 := by
        constructor
        · rintro ⟨h, hn⟩
          cases h with
          | zero => exact absurd rfl hd0
          | decimal ds t h => exact ⟨ds, .digits _ _ _ h, rfl, hn⟩
          | octal => exact absurd ⟨_, rfl⟩ h0
          | based p b hp' ds u t hu h => exact (noG hp' rfl h).elim
        · rintro ⟨ds, h, rfl, hn⟩
          refine ⟨?_, hn⟩
          cases h with
          | nil => exact absurd rfl hs
          | digits _ _ _ g => exact .decimal ds s g hd0
      rw [spec]
      rcases hsign with ⟨c, t, rfl, hc⟩ | hok
      · have hsyn : uintDigits 10 0 false (c :: t) = .syntax := by
          rcases hc with rfl | rfl <;> rfl
        simp only [uintEnd, hsyn]
        constructor
        · intro h; cases h
        · rintro ⟨ds, h, -⟩
          exfalso
          have nd : ∀ d, ¬ BaseDigit 10 c d := by
            intro d h
            have := ((baseDigit_iff (by decide) c d).1 h).1
            rcases hc with rfl | rfl <;> cases this
          generalize e : c :: t = s at h
          cases h with
          | nil => cases e
          | digits _ _ _ g =>
            cases g with
            | one c d h => injection e with e _; subst e; exact nd d h
            | next c d h => injection e with e _; subst e; exact nd d h
            | under c d h => injection e with e _; subst e; exact nd d h
      · exact uint_core (by decide) (by decide) (by decide) hok n
    · rw [uint_range (by decide)]
      constructor
      · rintro ⟨ds, t, rest, h, e, hv⟩
        have e : s = t ++ rest := e
        have h0' : t.head? ≠ some '0' := by
          rcases t with _ | ⟨a, t⟩
          · simp
          · rw [e] at hd0; exact hd0
        rw [e]
        exact .decimal ds t rest h h0' hv
      · intro h
        cases h with
        | decimal ds t rest h h0 hv => exact ⟨ds, t, rest, h, rfl, hv⟩
        | octal => exact absurd ⟨_, rfl⟩ h0
        | based p b hp' ds t rest h hv => exact (noO hp' rfl h hv).elim

/-- No sign can be read twice. -/
theorem goNat_sign {c : Char} (hc : c = '+' ∨ c = '-') (t : Str) (n : Nat) : ¬ GoNat (c :: t) n := by
  intro h
  have nd : ∀ d, ¬ BaseDigit 10 c d := by
    intro d h
    have := ((baseDigit_iff (by decide) c d).1 h).1
    rcases hc with rfl | rfl <;> cases this
  have n0 : c ≠ '0' := by rcases hc with rfl | rfl <;> decide
  generalize e : c :: t = s at h
  cases h with
  | zero => injection e with e; exact n0 e
  | decimal ds t g =>
    cases g with
    | one c d h => injection e with e _; subst e; exact nd d h
    | next c d h => injection e with e _; subst e; exact nd d h
    | under c d h => injection e with e _; subst e; exact nd d h
  | octal => injection e with e; exact n0 e
  | based p b hp => obtain ⟨x, -, rfl⟩ := prefix_letter.1 hp; injection e with e; exact n0 e

theorem oversize_sign {c : Char} (hc : c = '+' ∨ c = '-') (t : Str) : ¬ Oversize (c :: t) := by
  intro h
  have nd : ∀ d, ¬ BaseDigit 10 c d := by
    intro d h
    have := ((baseDigit_iff (by decide) c d).1 h).1
    rcases hc with rfl | rfl <;> cases this
  have n0 : c ≠ '0' := by rcases hc with rfl | rfl <;> decide
  generalize e : c :: t = s at h
  cases h with
  | decimal ds t rest g h0 hv =>
    cases g with
    | nil => exact absurd hv (by decide)
    | digit c d h => injection e with e _; subst e; exact nd d h
    | under => injection e with e _; subst e; rcases hc with h | h <;> exact absurd h (by decide)
  | octal => injection e with e; exact n0 e
  | based p b hp => obtain ⟨x, -, rfl⟩ := prefix_letter.1 hp; injection e with e; exact n0 e

/-- A number is written in one way only. -/
theorem goNat_oversize {s : Str} {n : Nat} (h : GoNat s n) (hn : n < 2 ^ 64) : ¬ Oversize s := by
  intro k
  have h1 := ((parseUint0_iff s).1 n).2 ⟨h, hn⟩
  rw [(parseUint0_iff s).2.2 k] at h1
  cases h1

theorem placed_valueIn_oversize {s : Str} {n : Nat} (h : GoNat s n) (hn : 2 ^ 64 ≤ n) : Oversize s := by
  cases h with
  | zero => exact absurd hn (by decide)
  | decimal ds t g h0 =>
    have := Oversize.decimal ds s [] (grouped_scattered g) h0 hn
    rwa [List.append_nil] at this
  | octal ds u t hu g =>
    have k : Scattered 8 ds (u ++ t) := by
      rcases hu with rfl | rfl
      · exact grouped_scattered g
      · exact .under ds t (grouped_scattered g)
    have := Oversize.octal ds (u ++ t) [] k hn
    rwa [List.append_nil] at this
  | based p b hp ds u t hu g =>
    have k : Scattered b ds (u ++ t) := by
      rcases hu with rfl | rfl
      · exact grouped_scattered g
      · exact .under ds t (grouped_scattered g)
    have := Oversize.based p b hp ds (u ++ t) [] k hn
    rwa [List.append_nil] at this

/-- What ParseInt does after the sign. -/
def intEnd (neg : Bool) (t : Str) : Num Int :=
  match parseUint0 t with
  | .syntax => .syntax
  | .range => .range
  | .ok n =>
    if !neg && 2 ^ 63 ≤ n then .range
    else if neg && 2 ^ 63 < n then .range
    else .ok (if neg then -(n : Int) else n)

theorem intEnd_iff (neg : Bool) (t : Str) :
    (∀ v, intEnd neg t = .ok v ↔ ∃ n : Nat, GoNat t n ∧ v = (if neg then -(n : Int) else n) ∧ -2 ^ 63 ≤ v ∧ v < 2 ^ 63) ∧
    (intEnd neg t = .range ↔ Oversize t ∨ ∃ n : Nat, GoNat t n ∧ ((if neg then -(n : Int) else n) < -2 ^ 63 ∨ 2 ^ 63 ≤ (if neg then -(n : Int) else (n : Int)))) := by
  obtain ⟨h1, h2⟩ := parseUint0_iff t
  have big : ∀ {n}, GoNat t n → (parseUint0 t = .ok n ∧ n < 2 ^ 64) ∨ (2 ^ 64 ≤ n ∧ parseUint0 t = .range) := by
    intro n h
    by_cases hn : n < 2 ^ 64
    · exact .inl ⟨(h1 n).2 ⟨h, hn⟩, hn⟩
    · exact .inr ⟨by omega, h2.2 (placed_valueIn_oversize h (by omega))⟩
  unfold intEnd
  cases e : parseUint0 t with
  | «syntax» =>
    simp only
    refine ⟨fun v => ⟨fun h => (by cases h), ?_⟩, ⟨fun h => (by cases h), ?_⟩⟩
    · rintro ⟨n, h, -⟩
      rcases big h with ⟨k, -⟩ | ⟨-, k⟩ <;> (rw [e] at k; cases k)
    · rintro (h | ⟨n, h, -⟩)
      · rw [h2.2 h] at e; cases e
      · rcases big h with ⟨k, -⟩ | ⟨-, k⟩ <;> (rw [e] at k; cases k)
  | range =>
    simp only
    refine ⟨fun v => ⟨fun h => (by cases h), ?_⟩, ⟨fun _ => .inl (h2.1 e), fun _ => trivial⟩⟩
    rintro ⟨n, h, hv, hr⟩
    rcases big h with ⟨k, -⟩ | ⟨k, -⟩
    · rw [e] at k; cases k
    · cases neg <;> simp only [Bool.false_eq_true, if_false, if_true] at hv <;> omega
  | ok n =>
    obtain ⟨g, hn⟩ := (h1 n).1 e
    have uniq : ∀ {m}, GoNat t m → m = n := by
      intro m h
      rcases big h with ⟨k, -⟩ | ⟨-, k⟩
      · rw [e] at k; injection k with k; exact k.symm
      · rw [e] at k; cases k
    have no : ¬ Oversize t := goNat_oversize g hn
    simp only
    cases neg with
    | false =>
      simp only [Bool.not_false, Bool.true_and, Bool.false_and, Bool.false_eq_true, if_false, decide_eq_true_eq]
      by_cases hb : 2 ^ 63 ≤ n
      · rw [if_pos hb]
        refine ⟨fun v => ⟨fun h => (by cases h), ?_⟩, ⟨fun _ => .inr ⟨n, g, .inr (by omega)⟩, fun _ => rfl⟩⟩
        rintro ⟨m, h, rfl, hr⟩
        obtain rfl := uniq h
        omega
      · rw [if_neg hb]
        refine ⟨fun v => ⟨fun h => ?_, ?_⟩, ⟨fun h => (by cases h), ?_⟩⟩
        · injection h with h
          exact ⟨n, g, h.symm, by omega, by omega⟩
        · rintro ⟨m, h, rfl, hr⟩
          rw [uniq h]
        · rintro (h | ⟨m, h, hr⟩)
          · exact absurd h no
          · obtain rfl := uniq h; omega
    | true =>
      simp only [Bool.not_true, Bool.true_and, Bool.false_and, Bool.false_eq_true, if_false, if_true, decide_eq_true_eq]
      by_cases hb : 2 ^ 63 < n
      · rw [if_pos hb]
        refine ⟨fun v => ⟨fun h => (by cases h), ?_⟩, ⟨fun _ => .inr ⟨n, g, .inl (by omega)⟩, fun _ => rfl⟩⟩
        rintro ⟨m, h, rfl, hr⟩
        obtain rfl := uniq h
        omega
      · rw [if_neg hb]
        refine ⟨fun v => ⟨fun h => ?_, ?_⟩, ⟨fun h => (by cases h), ?_⟩⟩
        · injection h with h
          exact ⟨n, g, h.symm, by omega, by omega⟩
        · rintro ⟨m, h, rfl, hr⟩
          rw [uniq h]
        · rintro (h | ⟨m, h, hr⟩)
          · exact absurd h no
          · obtain rfl := uniq h; omega

theorem parseInt0_eq (s : Str) : (∃ t, s = '+' :: t ∧ parseInt0 s = intEnd false t) ∨ (∃ t, s = '-' :: t ∧ parseInt0 s = intEnd true t) ∨
    ((∀ t, s ≠ '+' :: t) ∧ (∀ t, s ≠ '-' :: t) ∧ parseInt0 s = intEnd false s) := by
  unfold parseInt0
  split
  · exact .inl ⟨_, rfl, rfl⟩
  · exact .inr (.inl ⟨_, rfl, rfl⟩)
  · rename_i h1 h2
    exact .inr (.inr ⟨h1, h2, rfl⟩)

/-- **C86**: the numbers package flag reads, and why it does not read others. -/
theorem C86_port (s : Str) :
    (∀ v, parseInt0 s = .ok v ↔ PortText s v) ∧
    (parseInt0 s = .range ↔ NoPort s (c! "value out of range")) ∧
    (parseInt0 s = .syntax ↔ NoPort s (c! "parse error")) := by
  have main : (∀ v, parseInt0 s = .ok v ↔ PortText s v) ∧ (parseInt0 s = .range ↔ OversizeInt s ∨ ∃ v, GoInt s v ∧ (v < -2 ^ 63 ∨ 2 ^ 63 ≤ v)) := by
    rcases parseInt0_eq s with ⟨t, rfl, e⟩ | ⟨t, rfl, e⟩ | ⟨hp, hm, e⟩
    · rw [e]
      obtain ⟨h1, h2⟩ := intEnd_iff false t
      have gi : ∀ v, GoInt ('+' :: t) v ↔ ∃ n : Nat, GoNat t n ∧ v = n := by
        intro v
        constructor
        · intro h
          generalize e : '+' :: t = s at h
          cases h with
          | plain t n h => subst e; exact absurd h (goNat_sign (.inl rfl) _ _)
          | plus t n h => injection e with _ e; subst e; exact ⟨n, h, rfl⟩
          | minus => injection e with e; exact absurd e (by decide)
        · rintro ⟨n, h, rfl⟩; exact .plus t n h
      refine ⟨fun v => ?_, ?_⟩
      · rw [h1, PortText, gi]
        constructor
        · rintro ⟨n, h, hv, hr⟩; exact ⟨⟨n, h, hv⟩, hr⟩
        · rintro ⟨⟨n, h, hv⟩, hr⟩; exact ⟨n, h, hv, hr⟩
      · rw [h2]
        constructor
        · rintro (h | ⟨n, h, hr⟩)
          · exact .inl (.inr ⟨t, .inl rfl, h⟩)
          · exact .inr ⟨n, (gi n).2 ⟨n, h, rfl⟩, hr⟩
        · rintro ((h | ⟨t', h | h, k⟩) | ⟨v, h, hr⟩)
          · exact absurd h (oversize_sign (.inl rfl) _)
          · injection h with _ h; subst h; exact .inl k
          · injection h with h; exact absurd h (by decide)
          · obtain ⟨n, k, rfl⟩ := (gi v).1 h; exact .inr ⟨n, k, hr⟩
    · rw [e]
      obtain ⟨h1, h2⟩ := intEnd_iff true t
      have gi : ∀ v, GoInt ('-' :: t) v ↔ ∃ n : Nat, GoNat t n ∧ v = -(n : Int) := by
        intro v
        constructor
        · intro h
          generalize e : '-' :: t = s at h
          cases h with
          | plain t n h => subst e; exact absurd h (goNat_sign (.inr rfl) _ _)
          | minus t n h => injection e with _ e; subst e; exact ⟨n, h, rfl⟩
          | plus => injection e with e; exact absurd e (by decide)
        · rintro ⟨n, h, rfl⟩; exact .minus t n h
      refine ⟨fun v => ?_, ?_⟩
      · rw [h1, PortText, gi]
        constructor
        · rintro ⟨n, h, hv, hr⟩; exact ⟨⟨n, h, hv⟩, hr⟩
        · rintro ⟨⟨n, h, hv⟩, hr⟩; exact ⟨n, h, hv, hr⟩
      · rw [h2]
        constructor
        · rintro (h | ⟨n, h, hr⟩)
          · exact .inl (.inr ⟨t, .inr rfl, h⟩)
          · exact .inr ⟨-(n : Int), (gi _).2 ⟨n, h, rfl⟩, hr⟩
        · rintro ((h | ⟨t', h | h, k⟩) | ⟨v, h, hr⟩)
          · exact absurd h (oversize_sign (.inr rfl) _)
          · injection h with h; exact absurd h (by decide)
          · injection h with _ h; subst h; exact .inl k
          · obtain ⟨n, k, rfl⟩ := (gi v).1 h; exact .inr ⟨n, k, hr⟩
    · rw [e]
      obtain ⟨h1, h2⟩ := intEnd_iff false s
      have gi : ∀ v, GoInt s v ↔ ∃ n : Nat, GoNat s n ∧ v = n := by
        intro v
        constructor
        · intro h
          cases h with
          | plain t n h => exact ⟨n, h, rfl⟩
          | plus t n h => exact absurd rfl (hp t)
          | minus t n h => exact absurd rfl (hm t)
        · rintro ⟨n, h, rfl⟩; exact .plain s n h
      refine ⟨fun v => ?_, ?_⟩
      · rw [h1, PortText, gi]
        constructor
        · rintro ⟨n, h, hv, hr⟩; exact ⟨⟨n, h, hv⟩, hr⟩
        · rintro ⟨⟨n, h, hv⟩, hr⟩; exact ⟨n, h, hv, hr⟩
      · rw [h2]
        constructor
        · rintro (h | ⟨n, h, hr⟩)
          · exact .inl (.inl h)
          · exact .inr ⟨n, (gi n).2 ⟨n, h, rfl⟩, hr⟩
        · rintro ((h | ⟨t', h | h, k⟩) | ⟨v, h, hr⟩)
          · exact .inl h
          · exact absurd h (hp t')
          · exact absurd h (hm t')
          · obtain ⟨n, k, rfl⟩ := (gi v).1 h; exact .inr ⟨n, k, hr⟩
  obtain ⟨h1, h2⟩ := main
  refine ⟨h1, ?_, ?_⟩
  · rw [h2]
    constructor
    · rintro (h | ⟨v, h, hr⟩)
      · exact .long h
      · exact .range v h hr
    · intro h
      generalize e : c! "value out of range" = w at h
      cases h with
      | long h => exact .inl h
      | range v h hv => exact .inr ⟨v, h, hv⟩
      | other => exact absurd e (by decide)
  · constructor
    · intro e
      refine .other (fun v h => ?_) (fun h => ?_)
      · by_cases hv : v < -2 ^ 63 ∨ 2 ^ 63 ≤ v
        · rw [h2.2 (.inr ⟨v, h, hv⟩)] at e; cases e
        · rw [(h1 v).2 ⟨h, by omega, by omega⟩] at e; cases e
      · rw [h2.2 (.inl h)] at e; cases e
    · intro h
      generalize e : c! "parse error" = w at h
      cases h with
      | long h => exact absurd e (by decide)
      | range v h hv => exact absurd e (by decide)
      | other k1 k2 =>
        cases e' : parseInt0 s with
        | ok v => exact absurd ((h1 v).1 e').1 (k1 v)
        | «syntax» => rfl
        | range =>
          rcases h2.1 e' with h | ⟨v, h, -⟩
          · exact absurd h k2
          · exact absurd h (k1 v)

-- decimal, octal and hexadecimal numbers, and underscores
example : PortText (c! "0x1F_90") 8080 := ((C86_port _).1 _).1 (by decide +kernel)
example : PortText (c! "017620") 8080 := ((C86_port _).1 _).1 (by decide +kernel)
example : NoPort (c! "80_") (c! "parse error") := (C86_port _).2.2.1 (by decide +kernel)
example : NoPort (c! "18446744073709551616x") (c! "value out of range") := (C86_port _).2.1.1 (by decide +kernel)
example : parseInt0 (c! "-0b11") = .ok (-3) :=
  ((C86_port _).1 _).2 ⟨.minus _ 3 (.based _ 2 .b [1, 1] [] (c! "11") (.inl rfl) (.next '1' 1 (.dig 1 (by decide) (by decide)) _ _ (.one '1' 1 (.dig 1 (by decide) (by decide))))), by decide, by decide⟩

/-! ### Flags -/

theorem flagValue_of {n : Str} (hn : '=' ∉ n) : flagValue n = none ∧ ∀ w, flagValue (n ++ '=' :: w) = some w := by
  induction n with
  | nil => exact ⟨rfl, fun w => by rw [List.nil_append, flagValue, if_pos rfl]⟩
  | cons c n ih =>
    obtain ⟨h1, h2⟩ := ih (fun h => hn (List.mem_cons_of_mem _ h))
    have hc : c ≠ '=' := by intro h; subst h; exact hn List.mem_cons_self
    refine ⟨by rw [flagValue, if_neg hc, h1], fun w => ?_⟩
    rw [List.cons_append, flagValue, if_neg hc, h2]

theorem flagName_of {n : Str} (hn : '=' ∉ n) : flagName n = n ∧ ∀ w, flagName (n ++ '=' :: w) = n :=
  ⟨(flagName_help hn).2 ⟨[], .inl rfl, (List.append_nil n).symm⟩, fun w => (flagName_help hn).2 ⟨_, .inr ⟨w, rfl⟩, rfl⟩⟩

/-- The name of a flag does not begin with a hyphen or an equals sign. -/
theorem flagWord_of {hy : Str} (hh : Hyphens hy) {c : Char} (h1 : c ≠ '-') (h2 : c ≠ '=') (r : Str) :
    flagWord (hy ++ c :: r) = .flag (flagName (c :: r)) (flagValue (c :: r)) := by
  rcases hh with rfl | rfl
  · show flagWord ('-' :: c :: r) = _
    unfold flagWord
    split
    · rename_i e; injection e with _ e; injection e with e _; exact absurd e h1
    · rename_i e; injection e with _ e; injection e with e _; exact absurd e h1
    · rename_i e; injection e with _ e; injection e with e1 e2; subst e1; subst e2; exact if_neg h2
    · rename_i k; exact absurd rfl (k _ _)
  · show (if c = '-' ∨ c = '=' then FlagWord.bad else _) = _
    exact if_neg (by rintro (h | h) <;> contradiction)

/-- The arguments as package flag sees them. -/
theorem flagWord_cases (s : Str) :
    (flagWord s = .operand ∧ ¬ Hyphened s) ∨ (flagWord s = .dashes ∧ s = c! "--") ∨
    (flagWord s = .bad ∧ ∃ r, s = '-' :: '=' :: r ∨ s = '-' :: '-' :: '=' :: r ∨ s = '-' :: '-' :: '-' :: r) ∨
    ∃ hy c r, Hyphens hy ∧ c ≠ '-' ∧ c ≠ '=' ∧ s = hy ++ c :: r := by
  by_cases h : Hyphened s
  · obtain ⟨c, r, rfl⟩ := h
    by_cases hc : c = '-'
    · subst hc
      rcases r with _ | ⟨d, r⟩
      · exact .inr (.inl ⟨rfl, rfl⟩)
      · by_cases hd : d = '-' ∨ d = '='
        · refine .inr (.inr (.inl ⟨if_pos hd, r, ?_⟩))
          rcases hd with rfl | rfl
          · exact .inr (.inr rfl)
          · exact .inr (.inl rfl)
        · exact .inr (.inr (.inr ⟨c! "--", d, r, .inr rfl, fun k => hd (.inl k), fun k => hd (.inr k), rfl⟩))
    · by_cases hd : c = '='
      · subst hd
        exact .inr (.inr (.inl ⟨rfl, r, .inl rfl⟩))
      · exact .inr (.inr (.inr ⟨c! "-", c, r, .inl rfl, hc, hd, rfl⟩))
  · refine .inl ⟨?_, h⟩
    unfold flagWord
    split
    · exact absurd ⟨_, _, rfl⟩ h
    · exact absurd ⟨_, _, rfl⟩ h
    · exact absurd ⟨_, _, rfl⟩ h
    · rfl

/-- The values of the specification as those of the model. -/
def toOpts : (Str × Int) ⊕ (Nat × Str) → ServerOpts ⊕ (Nat × Str)
  | .inl (h, p) => .inl ⟨h, p⟩
  | .inr e => .inr e

theorem toOpts_inj {a b : (Str × Int) ⊕ (Nat × Str)} (h : toOpts a = toOpts b) : a = b := by
  rcases a with ⟨h1, p1⟩ | a <;> rcases b with ⟨h2, p2⟩ | b
  · injection h with h; injection h with h1 h2; rw [h1, h2]
  · cases h
  · cases h
  · injection h with h; rw [h]

/-- One flag of ours with its value. -/
theorem flags_eq {usage : Str} {hy n : Str} (hh : Hyphens hy) (hn : n = c! "host" ∨ n = c! "port") (v : Str) (as : List Str) (o : ServerOpts) :
    serverFlags usage ((hy ++ (n ++ '=' :: v)) :: as) o = (match serverSet o n v with
      | .inl o => serverFlags usage as o
      | .inr m => flagFail usage (c! "invalid value " ++ quoteGo v ++ c! " for flag -" ++ n ++ c! ": " ++ m)) ∧
    serverFlags usage ((hy ++ n) :: v :: as) o = (match serverSet o n v with
      | .inl o => serverFlags usage as o
      | .inr m => flagFail usage (c! "invalid value " ++ quoteGo v ++ c! " for flag -" ++ n ++ c! ": " ++ m)) ∧
    serverFlags usage [hy ++ n] o = flagFail usage (c! "flag needs an argument: -" ++ n) := by
  have he : '=' ∉ n := by rcases hn with rfl | rfl <;> decide
  obtain ⟨c, r, rfl, h1, h2⟩ : ∃ c r, n = c :: r ∧ c ≠ '-' ∧ c ≠ '=' := by
    rcases hn with rfl | rfl
    · exact ⟨_, _, rfl, by decide, by decide⟩
    · exact ⟨_, _, rfl, by decide, by decide⟩
  have w1 := flagWord_of hh h1 h2 (r ++ '=' :: v)
  rw [← List.cons_append, (flagName_of he).2, (flagValue_of he).2] at w1
  have w2 := flagWord_of hh h1 h2 r
  rw [(flagName_of he).1, (flagValue_of he).1] at w2
  refine ⟨?_, ?_, ?_⟩
  · rw [serverFlags, w1]; simp only; rw [if_pos hn]
    cases serverSet o (c :: r) v <;> rfl
  · rw [serverFlags, w2]; simp only; rw [if_pos hn]
    cases serverSet o (c :: r) v <;> rfl
  · rw [serverFlags, w2]; simp only; rw [if_pos hn]

theorem noPort_eq {v why : Str} (h : NoPort v why) (o : ServerOpts) : serverSet o (c! "port") v = .inr why := by
  have hw : why = c! "value out of range" ∨ why = c! "parse error" := by
    cases h
    · exact .inl rfl
    · exact .inl rfl
    · exact .inr rfl
  unfold serverSet
  rw [if_neg (by decide)]
  rcases hw with rfl | rfl
  · rw [(C86_port v).2.1.2 h]
  · rw [(C86_port v).2.2.2 h]

theorem portText_eq {v : Str} {n : Int} (h : PortText v n) (o : ServerOpts) : serverSet o (c! "port") v = .inl { o with port := n } := by
  unfold serverSet
  rw [if_neg (by decide), ((C86_port v).1 n).2 h]

theorem host_eq (v : Str) (o : ServerOpts) : serverSet o (c! "host") v = .inl { o with host := v } := by
  unfold serverSet
  rw [if_pos rfl]

theorem serverFlags_of {usage : Str} {as : List Str} {h : Str} {p : Int} {r : (Str × Int) ⊕ (Nat × Str)} (k : ServerArgs usage as h p r) :
    serverFlags usage as ⟨h, p⟩ = toOpts r := by
  induction k with
  | plain as h p k =>
    rcases as with _ | ⟨a, as⟩
    · rfl
    · rw [serverFlags]
      rcases flagWord_cases a with ⟨e, -⟩ | ⟨e, rfl⟩ | ⟨e, r, rfl | rfl | rfl⟩ | ⟨hy, c, r, hh, h1, h2, rfl⟩
      · rw [e]; rfl
      · exact absurd ⟨_, _, rfl⟩ k
      · exact absurd ⟨_, _, rfl⟩ k
      · exact absurd ⟨_, _, rfl⟩ k
      · exact absurd ⟨_, _, rfl⟩ k
      · rcases hh with rfl | rfl <;> exact absurd ⟨_, _, rfl⟩ k
  | dashes => rfl
  | host hy v hh as h p r k ih =>
    rw [(flags_eq hh (.inl rfl) v as _).1, host_eq]
    exact ih
  | hostNext hy v hh as h p r k ih =>
    rw [(flags_eq hh (.inl rfl) v as _).2.1, host_eq]
    exact ih
  | port hy v hh n hn as h p r k ih =>
    rw [(flags_eq hh (.inr rfl) v as _).1, portText_eq hn]
    exact ih
  | portNext hy v hh n hn as h p r k ih =>
    rw [(flags_eq hh (.inr rfl) v as _).2.1, portText_eq hn]
    exact ih
  | badPort hy v q why hh hq hw as h p =>
    rw [(flags_eq hh (.inr rfl) v as _).1, noPort_eq hw, show quoteGo v = c! "\"" ++ q ++ c! "\"" by rw [(escapedAll_iff v q).1 hq]; rfl]
    simp [flagFail, toOpts]
  | badPortNext hy v q why hh hq hw as h p =>
    rw [(flags_eq hh (.inr rfl) v as _).2.1, noPort_eq hw, show quoteGo v = c! "\"" ++ q ++ c! "\"" by rw [(escapedAll_iff v q).1 hq]; rfl]
    simp [flagFail, toOpts]
  | missing hy n hh hn h p =>
    rw [(flags_eq hh hn [] [] _).2.2]
    rfl
  | help a ha as h p =>
    obtain ⟨hy, n, v, hh, hn, hv, rfl⟩ := ha
    have he : '=' ∉ n := by rcases hn with rfl | rfl <;> decide
    obtain ⟨c, r, rfl, h1, h2⟩ : ∃ c r, n = c :: r ∧ c ≠ '-' ∧ c ≠ '=' := by
      rcases hn with rfl | rfl
      · exact ⟨_, _, rfl, by decide, by decide⟩
      · exact ⟨_, _, rfl, by decide, by decide⟩
    have w := flagWord_of hh h1 h2 (r ++ v)
    rw [← List.cons_append, (flagName_help he).2 ⟨v, hv, rfl⟩, ← List.append_assoc] at w
    rw [serverFlags, w]
    simp only
    rw [if_neg (by rcases hn with h | h <;> rw [h] <;> decide), if_pos hn.symm]
    rfl
  | unknown a t ha ho ht as h p =>
    cases ht with
    | help k => exact absurd k ha
    | equals => simp [serverFlags, flagWord, flagFail, toOpts]
    | equals2 => simp [serverFlags, flagWord, flagFail, toOpts]
    | hyphens => simp [serverFlags, flagWord, flagFail, toOpts]
    | @unknown hy n v hh hn hv k =>
      obtain ⟨c, r, rfl⟩ : ∃ c r, n = c :: r := by
        rcases n with _ | ⟨c, r⟩
        · exact absurd rfl hn.1
        · exact ⟨c, r, rfl⟩
      have h1 : c ≠ '-' := by intro e; exact hn.2.1 (by rw [e]; rfl)
      have h2 : c ≠ '=' := by intro e; exact hn.2.2 (by rw [e]; exact List.mem_cons_self)
      have w := flagWord_of hh h1 h2 (r ++ v)
      rw [← List.cons_append, (flagName_help hn.2.2).2 ⟨v, hv, rfl⟩, ← List.append_assoc] at w
      rw [serverFlags, w]
      simp only
      rw [if_neg, if_neg]
      · simp [flagFail, toOpts]
      · rintro (e | e)
        · exact k.2 e
        · exact k.1 e
      · intro e
        exact ho ⟨hy, c :: r, v, hh, e, hv, List.append_assoc _ _ _⟩

/-- An argument that begins like a flag has a text. -/
theorem serverArgs_total (usage : Str) : ∀ (m : Nat) (as : List Str), as.length ≤ m → ∀ h p, ∃ r, ServerArgs usage as h p r := by
  intro m
  induction m with
  | zero =>
    intro as hl h p
    obtain rfl : as = [] := List.eq_nil_of_length_eq_zero (by omega)
    exact ⟨_, .plain [] h p trivial⟩
  | succ m ih =>
    intro as hl h p
    rcases as with _ | ⟨a, as⟩
    · exact ⟨_, .plain [] h p trivial⟩
    replace hl : as.length ≤ m := by simp only [List.length_cons] at hl; omega
    have hl' : ∀ {v bs}, as = v :: bs → bs.length ≤ m := by
      intro v bs e; rw [e] at hl; simp only [List.length_cons] at hl; omega
    rcases flagWord_cases a with ⟨-, k⟩ | ⟨-, rfl⟩ | ⟨-, r, rfl | rfl | rfl⟩ | ⟨hy, c, r, hh, h1, h2, rfl⟩
    · exact ⟨_, .plain _ h p k⟩
    · exact ⟨_, .dashes as h p⟩
    · refine ⟨_, .unknown _ _ ?_ ?_ .equals as h p⟩
      · rintro ⟨hy, n, v, rfl | rfl, rfl | rfl, -, e⟩ <;> exact absurd e (by simp)
      · rintro ⟨hy, n, v, rfl | rfl, rfl | rfl, -, e⟩ <;> exact absurd e (by simp)
    · refine ⟨_, .unknown _ _ ?_ ?_ .equals2 as h p⟩
      · rintro ⟨hy, n, v, rfl | rfl, rfl | rfl, -, e⟩ <;> exact absurd e (by simp)
      · rintro ⟨hy, n, v, rfl | rfl, rfl | rfl, -, e⟩ <;> exact absurd e (by simp)
    · refine ⟨_, .unknown _ _ ?_ ?_ .hyphens as h p⟩
      · rintro ⟨hy, n, v, rfl | rfl, rfl | rfl, -, e⟩ <;> exact absurd e (by simp)
      · rintro ⟨hy, n, v, rfl | rfl, rfl | rfl, -, e⟩ <;> exact absurd e (by simp)
    · by_cases ho : Ours (hy ++ c :: r)
      · obtain ⟨hy', n, v, hh', hn, hv, e⟩ := ho
        rw [e]
        have port : ∀ w, (∃ n, PortText w n) ∨ ∃ why, NoPort w why := by
          intro w
          cases e : parseInt0 w with
          | ok n => exact .inl ⟨n, ((C86_port w).1 n).1 e⟩
          | «syntax» => exact .inr ⟨_, (C86_port w).2.2.1 e⟩
          | range => exact .inr ⟨_, (C86_port w).2.1.1 e⟩
        rcases hv with rfl | ⟨w, rfl⟩
        · rw [List.append_nil]
          rcases as with _ | ⟨v, bs⟩
          · exact ⟨_, .missing hy' n hh' hn h p⟩
          · rcases hn with rfl | rfl
            · obtain ⟨r, k⟩ := ih bs (hl' rfl) v p
              exact ⟨r, .hostNext hy' v hh' bs h p r k⟩
            · rcases port v with ⟨n, hn⟩ | ⟨why, hw⟩
              · obtain ⟨r, k⟩ := ih bs (hl' rfl) h n
                exact ⟨r, .portNext hy' v hh' n hn bs h p r k⟩
              · exact ⟨_, .badPortNext hy' v _ why hh' ((escapedAll_iff v _).2 rfl) hw bs h p⟩
        · rcases hn with rfl | rfl
          · obtain ⟨r, k⟩ := ih as hl w p
            exact ⟨r, .host hy' w hh' as h p r k⟩
          · rcases port w with ⟨n, hn⟩ | ⟨why, hw⟩
            · obtain ⟨r, k⟩ := ih as hl h n
              exact ⟨r, .port hy' w hh' n hn as h p r k⟩
            · exact ⟨_, .badPort hy' w _ why hh' ((escapedAll_iff w _).2 rfl) hw as h p⟩
      · by_cases ha : AsksHelp (hy ++ c :: r)
        · exact ⟨_, .help _ ha as h p⟩
        · obtain ⟨v, hv, e, hn⟩ := flagName_split (c :: r)
          have t := FlagText.unknown hh (n := flagName (c :: r)) (v := v)
            ⟨by simp [flagName, h2], by simp [flagName, h1, h2], hn⟩ hv
            ⟨fun k => ha ⟨hy, _, v, hh, .inl k, hv, by rw [List.append_assoc, ← e]⟩, fun k => ha ⟨hy, _, v, hh, .inr k, hv, by rw [List.append_assoc, ← e]⟩⟩
          rw [List.append_assoc, ← e] at t
          exact ⟨_, .unknown _ _ ha ho t as h p⟩

/-- **C86**: what the arguments make of the host and the port. -/
theorem C86_flags (usage : Str) (as : List Str) (o : ServerOpts) (r : (Str × Int) ⊕ (Nat × Str)) :
    serverFlags usage as o = (match r with
      | .inl (h, p) => .inl ⟨h, p⟩
      | .inr e => .inr e) ↔ ServerArgs usage as o.host o.port r := by
  have e : (match r with
      | .inl (h, p) => Sum.inl ⟨h, p⟩
      | .inr e => .inr e) = toOpts r := by
    rcases r with ⟨h, p⟩ | r <;> rfl
  rw [e]
  constructor
  · intro h
    obtain ⟨r', k⟩ := serverArgs_total usage as.length as (Nat.le_refl _) o.host o.port
    have := serverFlags_of k
    rw [show (⟨o.host, o.port⟩ : ServerOpts) = o from rfl, h] at this
    rw [toOpts_inj this]
    exact k
  · exact serverFlags_of

-- a later flag counts, and so does nothing after an operand
example : serverFlags (c! "?") [c! "-port", c! "1", c! "--port=0x50", c! "-host=", c! "x", c! "-port=2"] serverDefaults = .inl ⟨[], 80⟩ :=
  (C86_flags _ _ _ (.inl ([], 80))).2
    (.portNext _ _ (.inl rfl) 1 (((C86_port _).1 _).1 (by decide +kernel)) _ _ _ _
      (.port _ _ (.inr rfl) 80 (((C86_port _).1 _).1 (by decide +kernel)) _ _ _ _
        (.host _ _ (.inl rfl) _ _ _ _ (.plain _ _ _ (by rintro ⟨c, r, h⟩; exact absurd h (by simp))))))
example : serverFlags (c! "?") [c! "-port"] serverDefaults = .inr (2, c! "flag needs an argument: -port\n?") :=
  (C86_flags _ _ _ (.inr _)).2 (.missing _ _ (.inl rfl) (.inr rfl) _ _)

/-! ### Addresses -/

theorem lastColon_none {s : Str} (h : ':' ∉ s) : lastColon s = none := by
  induction s with
  | nil => rfl
  | cons c s ih =>
    rw [lastColon, ih (fun k => h (List.mem_cons_of_mem _ k))]
    exact if_neg (by intro e; subst e; exact h List.mem_cons_self)

theorem lastColon_of (a : Str) {b : Str} (h : ':' ∉ b) : lastColon (a ++ ':' :: b) = some (a, b) := by
  induction a with
  | nil => rw [List.nil_append, lastColon, lastColon_none h]; rfl
  | cons c a ih => rw [List.cons_append, lastColon, ih]

theorem firstChar_none {x : Char} {s : Str} (h : x ∉ s) : firstChar x s = none := by
  induction s with
  | nil => rfl
  | cons c s ih =>
    rw [firstChar, if_neg (by intro e; subst e; exact h List.mem_cons_self), ih (fun k => h (List.mem_cons_of_mem _ k))]

theorem firstChar_of {x : Char} {a : Str} (h : x ∉ a) (b : Str) : firstChar x (a ++ x :: b) = some (a, b) := by
  induction a with
  | nil => rw [List.nil_append, firstChar, if_pos rfl]
  | cons c a ih =>
    rw [List.cons_append, firstChar, if_neg (by intro e; subst e; exact h List.mem_cons_self), ih (fun k => h (List.mem_cons_of_mem _ k))]

/-- A text is of one of two kinds for a character. -/
theorem split_first (x : Char) (s : Str) : x ∉ s ∨ ∃ a b, x ∉ a ∧ s = a ++ x :: b := by
  induction s with
  | nil => exact .inl (by simp)
  | cons c s ih =>
    by_cases hc : c = x
    · exact .inr ⟨[], s, by simp, by rw [hc]; rfl⟩
    · rcases ih with h | ⟨a, b, h, rfl⟩
      · exact .inl (by simp [Ne.symm hc, h])
      · exact .inr ⟨c :: a, b, by simp [Ne.symm hc, h], rfl⟩

/-- Without a bracket in front. -/
theorem splitHostPort_bare {h q : Str} (h0 : h.head? ≠ some '[') (hq : ':' ∉ q) :
    splitHostPort (h ++ ':' :: q) = if ':' ∈ h then .inl (c! "too many colons in address")
      else if '[' ∈ h ++ ':' :: q then .inl (c! "unexpected '[' in address")
      else if ']' ∈ h ++ ':' :: q then .inl (c! "unexpected ']' in address")
      else .inr (h, q) := by
  unfold splitHostPort
  rw [lastColon_of h hq]
  have : ∀ r, h ++ ':' :: q ≠ '[' :: r := by
    intro r e
    rcases h with _ | ⟨c, h⟩
    · injection e with e; exact absurd e (by decide)
    · injection e with e; subst e; exact h0 rfl
  simp only

/-- With a bracket in front. -/
theorem splitHostPort_bracket {n q : Str} (hq : ':' ∉ q) :
    splitHostPort ('[' :: (n ++ ':' :: q)) = (match firstChar ']' ('[' :: (n ++ ':' :: q)) with
      | none => .inl (c! "missing ']' in address")
      | some (pre, post) =>
        if post = [] then .inl (c! "missing port in address")
        else if pre.length + 1 = ('[' :: n).length then
          if '[' ∈ n ++ ':' :: q then .inl (c! "unexpected '[' in address")
          else if ']' ∈ post then .inl (c! "unexpected ']' in address")
          else .inr (pre.drop 1, q)
        else if post.head? = some ':' then .inl (c! "too many colons in address")
        else .inl (c! "missing port in address")) := by
  unfold splitHostPort
  rw [← List.cons_append, lastColon_of _ hq]
  rfl

theorem split_name {h n q : Str} (h1 : ':' ∉ q) (h2 : '[' ∉ q) (h3 : ']' ∉ q) (k : HostName h n) : splitHostPort (h ++ ':' :: q) = .inr (n, q) := by
  cases k with
  | bare h k1 k2 k3 =>
    rw [splitHostPort_bare (by intro e; rcases h with _ | ⟨c, h⟩; cases e; injection e with e; subst e; exact k2 List.mem_cons_self) h1, if_neg k1, if_neg (by simp [k2, h2]), if_neg (by simp [k3, h3])]
  | brackets n k2 k3 =>
    rw [List.cons_append, splitHostPort_bracket h1, show '[' :: (n ++ c! "]" ++ ':' :: q) = ('[' :: n) ++ ']' :: (':' :: q) by simp,
      firstChar_of (by simp [k3])]
    simp only
    rw [if_neg (by simp), if_pos (by simp), if_neg (by simp [k2, h2]), if_neg (by simp [h3])]
    rfl

theorem split_fault {h why q : Str} (h1 : ':' ∉ q) (h2 : '[' ∉ q) (h3 : ']' ∉ q) (k : HostFault h why) : splitHostPort (h ++ ':' :: q) = .inl why := by
  cases k with
  | colons h k0 k1 => rw [splitHostPort_bare k0 h1, if_pos k1]
  | left h k0 k1 k2 => rw [splitHostPort_bare k0 h1, if_neg k1, if_pos (by simp [k2])]
  | right h k1 k2 k3 =>
    rw [splitHostPort_bare (by intro e; rcases h with _ | ⟨c, h⟩; cases e; injection e with e; subst e; exact k2 List.mem_cons_self) h1, if_neg k1,
      if_neg (by simp [k2, h2]), if_pos (by simp [k3])]
  | opened n k3 =>
    rw [List.cons_append, splitHostPort_bracket h1, firstChar_none (by simp [k3, h3])]
  | twice n k2 k3 =>
    rw [List.cons_append, splitHostPort_bracket h1, show '[' :: (n ++ c! "]" ++ ':' :: q) = ('[' :: n) ++ ']' :: (':' :: q) by simp,
      firstChar_of (by simp [k3])]
    simp only
    rw [if_neg (by simp), if_pos (by simp), if_pos (by simp [k2])]
  | again n t k3 =>
    rw [List.cons_append, splitHostPort_bracket h1, show '[' :: (n ++ c! "]:" ++ t ++ ':' :: q) = ('[' :: n) ++ ']' :: (':' :: (t ++ ':' :: q)) by simp,
      firstChar_of (by simp [k3])]
    simp only
    rw [if_neg (by simp), if_neg (by simp), if_pos (by rfl)]
  | after n t c hc k3 =>
    rw [List.cons_append, splitHostPort_bracket h1, show '[' :: (n ++ c! "]" ++ c :: t ++ ':' :: q) = ('[' :: n) ++ ']' :: (c :: (t ++ ':' :: q)) by simp,
      firstChar_of (by simp [k3])]
    simp only
    rw [if_neg (by simp), if_neg (by simp), if_neg (by intro e; injection e with e; exact hc e)]

theorem host_total (h : Str) : (∃ n, HostName h n) ∨ ∃ why, HostFault h why := by
  by_cases h0 : h.head? = some '['
  · obtain ⟨n, rfl⟩ : ∃ n, h = '[' :: n := by
      rcases h with _ | ⟨c, n⟩
      · cases h0
      · injection h0 with h0; subst h0; exact ⟨n, rfl⟩
    rcases split_first ']' n with h3 | ⟨a, b, h3, rfl⟩
    · exact .inr ⟨_, .opened n h3⟩
    · rcases b with _ | ⟨c, b⟩
      · by_cases h2 : '[' ∈ a
        · exact .inr ⟨_, .twice a h2 h3⟩
        · exact .inl ⟨_, .brackets a h2 h3⟩
      · by_cases hc : c = ':'
        · subst hc
          have := HostFault.again a b h3
          rw [List.append_assoc] at this
          exact .inr ⟨_, this⟩
        · have := HostFault.after a b c hc h3
          rw [List.append_assoc] at this
          exact .inr ⟨_, this⟩
  · by_cases h1 : ':' ∈ h
    · exact .inr ⟨_, .colons h h0 h1⟩
    · by_cases h2 : '[' ∈ h
      · exact .inr ⟨_, .left h h0 h1 h2⟩
      · by_cases h3 : ']' ∈ h
        · exact .inr ⟨_, .right h h1 h2 h3⟩
        · exact .inl ⟨_, .bare h h1 h2 h3⟩

/-- The loop of parsePort on digits: small numbers are read, others stay large. -/
theorem portDigits_of {s : Str} (hs : s.all isDig = true) (n : Nat) :
    ∃ m, portDigits n s = some m ∧ (let F := s.foldl (fun acc c => acc * 10 + digVal c) n; n ≤ F ∧ (F ≤ 65535 → m = F) ∧ (65535 < F → 65535 < m)) := by
  induction s generalizing n with
  | nil => exact ⟨n, rfl, Nat.le_refl _, fun _ => rfl, fun h => h⟩
  | cons c s ih =>
    rw [List.all_cons, Bool.and_eq_true] at hs
    obtain ⟨m, e, k1, k2, k3⟩ := ih hs.2 (n * 10 + digVal c)
    rw [portDigits, if_neg (by rw [hs.1]; decide)]
    by_cases h1 : 2 ^ 30 ≤ n
    · rw [if_pos h1]
      refine ⟨_, rfl, ?_, ?_, ?_⟩ <;> simp only [List.foldl_cons] at * <;> omega
    · rw [if_neg h1]
      by_cases h2 : 2 ^ 32 - 1 < 10 * n + digVal c
      · rw [if_pos h2]
        refine ⟨_, rfl, ?_, ?_, ?_⟩ <;> simp only [List.foldl_cons] at * <;> omega
      · rw [if_neg h2, Nat.mul_comm 10 n, e]
        refine ⟨_, rfl, ?_, ?_, ?_⟩ <;> simp only [List.foldl_cons] at * <;> omega

theorem parsePort_itoa (p : Int) : ∃ v, parsePort (itoa p) = some v ∧ ((v < 0 ∨ 65535 < v) ↔ (p < 0 ∨ 65535 < p)) := by
  obtain ⟨m, e, -, k2, k3⟩ := portDigits_of (natDigits_all p.natAbs) 0
  change digitsVal _ ≤ 65535 → m = digitsVal _ at k2
  change 65535 < digitsVal _ → _ at k3
  rw [digitsVal_natDigits] at k2 k3
  unfold itoa
  by_cases hp : p < 0
  · rw [if_pos hp]
    refine ⟨_, by unfold parsePort; simp only [e]; rfl, ?_⟩
    simp only [Bool.not_true, Bool.false_and, Bool.false_eq_true, if_false, if_true, Bool.true_and, decide_eq_true_eq]
    refine ⟨fun _ => .inl hp, fun _ => .inl ?_⟩
    split <;> omega
  · rw [if_neg hp]
    have : parsePort (natDigits p.natAbs) = some (if 2 ^ 30 ≤ m then 2 ^ 30 - 1 else (m : Int)) := by
      have hd := natDigits_all p.natAbs
      unfold parsePort
      split
      · rename_i e; exact absurd e (natDigits_ne_nil _)
      · rename_i e; rw [e] at hd; exact absurd hd (by simp [isDig])
      · rename_i e; rw [e] at hd; exact absurd hd (by simp [isDig])
      · simp only [e, Option.map_some, Bool.not_false, Bool.true_and, Bool.false_and, Bool.false_eq_true, if_false, decide_eq_true_eq]
    refine ⟨_, this, ?_⟩
    split <;> omega

theorem itoa_intDigits (v : Int) : itoa v = intDigits v := by
  have := itoa_digits v.natAbs
  unfold itoa at this
  rw [if_neg (by omega), Int.natAbs_natCast] at this
  unfold itoa intDigits
  rw [this]

/-- A line that does not end in a line feed gets one. -/
theorem logLine_of {a b : Str} (hb : b ≠ []) (h : b.getLast? ≠ some '\n') : logLine (a ++ b) = a ++ b ++ c! "\n" := by
  unfold logLine
  rw [if_neg]
  rw [List.getLast?_append]
  cases e : b.getLast? with
  | none => exact absurd (List.getLast?_eq_none_iff.1 e) hb
  | some c => rw [e] at h; exact h

theorem hostFault_last {h why : Str} (k : HostFault h why) : why ≠ [] ∧ why.getLast? ≠ some '\n' := by
  cases k <;> decide

theorem itoa_last (p : Int) : (itoa p).getLast? ≠ some '\n' := by
  intro h
  exact itoa_not (by decide) (by decide) p (List.mem_of_getLast? h)

theorem serverUsage_eq (name : Str) : serverUsage name = usageText name := by
  unfold serverUsage usageText
  simp only [List.append_assoc]
  rfl

theorem starts_eq {name : Str} {as : List Str} {r : ServerRun} (k : Starts name as r) : cmdServer name as = r := by
  have flags : ∀ {r}, ServerArgs (usageText name) as (c! "localhost") 8080 r → serverFlags (serverUsage name) as serverDefaults = toOpts r := by
    intro r h
    rw [serverUsage_eq]
    exact serverFlags_of h
  have q1 : ∀ p : Int, ':' ∉ itoa p := itoa_not (by decide) (by decide)
  have q2 : ∀ p : Int, '[' ∉ itoa p := itoa_not (by decide) (by decide)
  have q3 : ∀ p : Int, ']' ∉ itoa p := itoa_not (by decide) (by decide)
  have line : ∀ (h : Str) (p : Int), logLine (c! "Listening for requests on " ++ (h ++ c! ":" ++ itoa p)) = startLine h p := by
    intro h p
    rw [← List.append_assoc, logLine_of (itoa_ne_nil p) (itoa_last p), itoa_intDigits]
    unfold startLine
    simp only [List.append_assoc]
  have addr : ∀ (h : Str) (p : Int), h ++ c! ":" ++ itoa p = h ++ ':' :: itoa p := fun h p => by simp
  unfold cmdServer
  cases k with
  | stopped n t h => rw [flags h]; rfl
  | listens h n p ha hn h1 h2 =>
    rw [flags ha]
    simp only [toOpts]
    rw [line, addr]
    obtain ⟨v, e, hv⟩ := parsePort_itoa p
    simp only [listen, split_name (q1 p) (q2 p) (q3 p) hn, e]
    rw [if_neg (by rw [hv]; omega)]
    simp only [itoa_intDigits]
  | badPort h n p ha hn hp =>
    rw [flags ha]
    simp only [toOpts]
    rw [line, addr]
    obtain ⟨v, e, hv⟩ := parsePort_itoa p
    simp only [listen, split_name (q1 p) (q2 p) (q3 p) hn, e]
    rw [if_pos (hv.2 hp)]
    simp only
    rw [show c! "Failed to start server, " ++ (c! "listen tcp: address " ++ itoa p ++ c! ": " ++ c! "invalid port") =
      (c! "Failed to start server, " ++ (c! "listen tcp: address " ++ itoa p ++ c! ": ")) ++ c! "invalid port" by simp only [List.append_assoc],
      logLine_of (by decide) (by decide), itoa_intDigits]
    congr 2
  | badHost h why p ha hw =>
    rw [flags ha]
    simp only [toOpts]
    rw [line, addr]
    simp only [listen, split_fault (q1 p) (q2 p) (q3 p) hw]
    rw [show c! "Failed to start server, " ++ (c! "listen tcp: address " ++ (h ++ ':' :: itoa p) ++ c! ": " ++ why) =
      (c! "Failed to start server, " ++ (c! "listen tcp: address " ++ (h ++ ':' :: itoa p) ++ c! ": ")) ++ why by simp only [List.append_assoc],
      logLine_of (hostFault_last hw).1 (hostFault_last hw).2, itoa_intDigits]
    congr 2
    unfold failLine
    simp

theorem starts_total (name : Str) (as : List Str) : ∃ r, Starts name as r := by
  obtain ⟨⟨h, p⟩ | ⟨n, t⟩, k⟩ := serverArgs_total (usageText name) as.length as (Nat.le_refl _) (c! "localhost") 8080
  · rcases host_total h with ⟨n, hn⟩ | ⟨why, hw⟩
    · by_cases hp : p < 0 ∨ 65535 < p
      · exact ⟨_, .badPort h n p k hn hp⟩
      · exact ⟨_, .listens h n p k hn (by omega) (by omega)⟩
    · exact ⟨_, .badHost h why p k hw⟩
  · exact ⟨_, .stopped n t k⟩

/-- **C86**: how the server starts: its arguments, the address it listens on, and what it says. -/
theorem C86_starts (name : Str) (as : List Str) (r : ServerRun) : cmdServer name as = r ↔ Starts name as r := by
  constructor
  · rintro rfl
    obtain ⟨r, k⟩ := starts_total name as
    rw [starts_eq k]
    exact k
  · exact starts_eq

-- without arguments, with an address of IPv6, and with a port too large
example : cmdServer (c! "server") [] = .listens (c! "localhost") (c! "8080") (c! "Listening for requests on localhost:8080\n") :=
  (C86_starts _ _ _).2 (.listens (c! "localhost") _ 8080 (.plain _ _ _ trivial) (.bare _ (by decide) (by decide) (by decide)) (by decide) (by decide))
example : Starts (c! "server") [c! "-host", c! "[::1]", c! "-port", c! "0"] (.listens (c! "::1") (c! "0") (c! "Listening for requests on [::1]:0\n")) :=
  (C86_starts _ _ _).1 (by decide +kernel)
example : Starts (c! "server") [c! "-port", c! "65536"]
    (.exit 1 (c! "Listening for requests on localhost:65536\nFailed to start server, listen tcp: address 65536: invalid port\n")) :=
  (C86_starts _ _ _).1 (by decide +kernel)

/-- **C86** (finding 36): an address of IPv6, which has colons, is never listened on as it is,
since host and port are joined without brackets. -/
theorem C86_ipv6 (name h : Str) (h0 : h.head? ≠ some '[') (h1 : ':' ∈ h) :
    cmdServer name [c! "-host", h] = .exit 1 (c! "Listening for requests on " ++ h ++ c! ":8080\n" ++
      c! "Failed to start server, listen tcp: address " ++ h ++ c! ":8080: too many colons in address\n") := by
  rw [C86_starts]
  have := Starts.badHost (name := name) (as := [c! "-host", h]) h _ 8080
    (.hostNext (c! "-") h (.inl rfl) [] _ _ _ (.plain [] h 8080 trivial)) (.colons h h0 h1)
  rw [show intDigits 8080 = c! "8080" from by decide +kernel] at this
  unfold startLine failLine at this
  rw [show intDigits 8080 = c! "8080" from by decide +kernel] at this
  simp only [List.append_assoc] at this ⊢
  exact this
example : ∃ t, cmdServer (c! "server") [c! "-host", c! "::1"] = .exit 1 t := ⟨_, C86_ipv6 _ _ (by decide) (by decide)⟩

end EDTF
