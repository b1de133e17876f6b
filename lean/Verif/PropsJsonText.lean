/- C71: which texts the JSON reader accepts, and what document each one is. -/
import Verif.LemmasJson
import Verif.SpecJson
namespace EDTF
open Spec

/-! ### Blanks -/

theorem space_iff (c : Char) : isJsonSpace c = true ↔ c = ' ' ∨ c = '\t' ∨ c = '\n' ∨ c = '\r' := by
  have h9 : c.toNat = 9 ↔ c = '\t' := ⟨fun h => small_char h, fun h => by subst h; rfl⟩
  have h10 : c.toNat = 10 ↔ c = '\n' := ⟨fun h => small_char h, fun h => by subst h; rfl⟩
  have h13 : c.toNat = 13 ↔ c = '\r' := ⟨fun h => small_char h, fun h => by subst h; rfl⟩
  simp [isJsonSpace, h9, h10, h13, or_assoc]

theorem skip_blank {a : Str} (h : JBlank a) (s : Str) : skipSpace (a ++ s) = skipSpace s := by
  induction a with
  | nil => rfl
  | cons c a ih =>
    show skipSpace (c :: (a ++ s)) = _
    rw [skipSpace, if_pos ((space_iff c).2 (h c List.mem_cons_self)), ih (fun d hd => h d (List.mem_cons_of_mem _ hd))]

theorem skip_inv (s : Str) : ∃ a, JBlank a ∧ s = a ++ skipSpace s := by
  induction s with
  | nil => exact ⟨[], (by intro c h; cases h), rfl⟩
  | cons c s ih =>
    rw [skipSpace]
    split
    · rename_i hc
      obtain ⟨a, ha, e⟩ := ih
      refine ⟨c :: a, ?_, by rw [List.cons_append, ← e]⟩
      intro d hd
      rcases List.mem_cons.1 hd with rfl | hd
      · exact (space_iff _).1 hc
      · exact ha d hd
    · exact ⟨[], (by intro c h; cases h), rfl⟩

theorem skip_blanks {a : Str} (h : JBlank a) : skipSpace a = [] := by
  have := skip_blank h []
  rw [List.append_nil] at this
  rw [this]; rfl

theorem skip_nil {s : Str} (h : skipSpace s = []) : JBlank s := by
  obtain ⟨a, ha, e⟩ := skip_inv s
  rw [h, List.append_nil] at e
  rw [e]; exact ha

/-! ### Strings -/

theorem hex_iff (c : Char) (v : Nat) : HexIs c v ↔ hexVal c = some v := by
  have tab : ∀ n < 128, hexVal (Char.ofNat n) = none ∨ ∃ v < 16, hexVal (Char.ofNat n) = some v ∧
      ((c! "0123456789abcdef")[v]? = some (Char.ofNat n) ∨ (c! "0123456789ABCDEF")[v]? = some (Char.ofNat n)) := by decide +kernel
  have tab2 : ∀ v < 16, ∀ c, ((c! "0123456789abcdef")[v]? = some c ∨ (c! "0123456789ABCDEF")[v]? = some c) → hexVal c = some v := by
    have t1 : ∀ v < 16, ((c! "0123456789abcdef")[v]?.bind hexVal = some v) ∧ ((c! "0123456789ABCDEF")[v]?.bind hexVal = some v) := by decide
    intro v hv c hc
    rcases hc with hc | hc
    · have := (t1 v hv).1; rw [hc] at this; exact this
    · have := (t1 v hv).2; rw [hc] at this; exact this
  constructor
  · intro h
    apply tab2 v _ c h
    rcases h with h | h
    · have := (List.getElem?_eq_some_iff.1 h).1; exact this
    · have := (List.getElem?_eq_some_iff.1 h).1; exact this
  · intro h
    by_cases hc : c.toNat < 128
    · rcases tab _ hc with h1 | ⟨v', _, h1, h2⟩
      · rw [Char.ofNat_toNat, h] at h1; cases h1
      · rw [Char.ofNat_toNat] at h1 h2
        rw [h] at h1; cases h1
        exact h2
    · exfalso
      have : isDig c = false := by
        rw [Bool.eq_false_iff]; intro hd
        have : 48 ≤ c.toNat ∧ c.toNat ≤ 57 := by simpa [isDig] using hd
        omega
      rw [hexVal, this] at h
      rw [if_neg (by simp), if_neg (by omega), if_neg (by omega)] at h
      cases h

theorem hex_lt {c : Char} {v : Nat} (h : HexIs c v) : v < 16 := by
  rcases h with h | h <;> exact (List.getElem?_eq_some_iff.1 h).1

theorem hex4_iff (a b c d : Char) (u : Nat) : hex4 a b c d = some u ↔
    ∃ w x y z, HexIs a w ∧ HexIs b x ∧ HexIs c y ∧ HexIs d z ∧ u = 16 * (16 * (16 * w + x) + y) + z := by
  simp only [hex_iff]
  unfold hex4
  constructor
  · intro h
    cases ha : hexVal a with
    | none => rw [ha] at h; cases h
    | some w =>
    cases hb : hexVal b with
    | none => rw [ha, hb] at h; cases h
    | some x =>
    cases hc : hexVal c with
    | none => rw [ha, hb, hc] at h; cases h
    | some y =>
    cases hd : hexVal d with
    | none => rw [ha, hb, hc, hd] at h; cases h
    | some z =>
      rw [ha, hb, hc, hd] at h
      have h : some (w * 4096 + x * 256 + y * 16 + z) = some u := h
      injection h with h
      exact ⟨w, x, y, z, rfl, rfl, rfl, rfl, by omega⟩
  · rintro ⟨w, x, y, z, ha, hb, hc, hd, rfl⟩
    rw [ha, hb, hc, hd]
    show some (w * 4096 + x * 256 + y * 16 + z) = _
    congr 1; omega

theorem esc_iff (e c : Char) : (e, c) ∈ escapes ↔ simpleEsc e = some c := by
  unfold simpleEsc escapes
  simp only [List.mem_cons, Prod.mk.injEq, List.not_mem_nil, or_false]
  constructor
  · rintro (⟨rfl, rfl⟩ | ⟨rfl, rfl⟩ | ⟨rfl, rfl⟩ | ⟨rfl, rfl⟩ | ⟨rfl, rfl⟩ | ⟨rfl, rfl⟩ | ⟨rfl, rfl⟩ | ⟨rfl, rfl⟩) <;> rfl
  · intro h
    by_cases h1 : e = '"'
    · subst h1; cases h; decide
    rw [if_neg h1] at h
    by_cases h2 : e = '\\'
    · subst h2; cases h; decide
    rw [if_neg h2] at h
    by_cases h3 : e = '/'
    · subst h3; cases h; decide
    rw [if_neg h3] at h
    by_cases h4 : e = 'b'
    · subst h4; cases h; decide
    rw [if_neg h4] at h
    by_cases h5 : e = 'f'
    · subst h5; cases h; decide
    rw [if_neg h5] at h
    by_cases h6 : e = 'n'
    · subst h6; cases h; decide
    rw [if_neg h6] at h
    by_cases h7 : e = 'r'
    · subst h7; cases h; decide
    rw [if_neg h7] at h
    by_cases h8 : e = 't'
    · subst h8; cases h; decide
    rw [if_neg h8] at h
    cases h

theorem esc_ne_u {e c : Char} (h : (e, c) ∈ escapes) : e ≠ 'u' := by
  rintro rfl
  rw [esc_iff] at h
  exact absurd h (by rw [show simpleEsc 'u' = none from rfl]; simp)

/-- A cut text is scanned up to the quote after it. -/
theorem scan_items {raw : Str} {is : List JItem} (h : JItems raw is) (s : Str) :
    scanString (raw ++ '"' :: s) = some (raw, s) := by
  induction h with
  | nil => simp [scanString]
  | plain h1 h2 h3 _ ih => rw [List.cons_append, scanString_plain h1 h2 h3, ih]; rfl
  | escape he _ ih =>
    rw [List.cons_append, List.cons_append, scanString_simple (esc_ne_u he) ((esc_iff _ _).1 he), ih]; rfl
  | code ha hb hc hd _ ih =>
    simp only [List.cons_append]
    rw [scanString_u ((hex4_iff _ _ _ _ _).2 ⟨_, _, _, _, ha, hb, hc, hd, rfl⟩), ih]; rfl

/-- What was scanned can be cut. -/
theorem scan_inv : (t raw s : Str) → scanString t = some (raw, s) → t = raw ++ '"' :: s ∧ ∃ is, JItems raw is := by
  intro t
  induction t using scanString.induct with
  | case1 => intro raw s h; simp [scanString] at h
  | case2 s0 => intro raw s h; rw [scanString] at h; cases h; exact ⟨rfl, [], .nil⟩
  | case3 a b c d s0 hx => intro raw s h; rw [scanString, hx] at h; cases h
  | case4 a b c d s0 u hx ih =>
    intro raw s h
    rw [scanString, hx] at h
    cases hr : scanString s0 with
    | none => rw [hr] at h; cases h
    | some p =>
      rw [hr] at h; cases h
      obtain ⟨e, is, hi⟩ := ih p.1 p.2 hr
      obtain ⟨w, x, y, z, ha, hb, hc, hd, -⟩ := (hex4_iff _ _ _ _ _).1 hx
      exact ⟨by rw [e]; simp, _, .code ha hb hc hd hi⟩
  | case5 e s0 hu he =>
    intro raw s h; rw [scanString, he] at h
    · cases h
    · exact hu
  | case6 e s0 hu x he ih =>
    intro raw s h; rw [scanString, he] at h
    · cases hr : scanString s0 with
      | none => rw [hr] at h; cases h
      | some p =>
        rw [hr] at h; cases h
        obtain ⟨e, is, hi⟩ := ih p.1 p.2 hr
        exact ⟨by rw [e]; simp, _, .escape ((esc_iff _ _).2 he) hi⟩
    · exact hu
  | case7 c s0 h1 h2 h3 hc =>
    intro raw s h
    rw [scanString] at h
    · rw [if_pos hc] at h; cases h
    · exact h1
    · exact h2
    · exact h3
  | case8 c s0 h1 h2 h3 hc ih =>
    intro raw s h
    rw [scanString] at h
    · rw [if_neg hc] at h
      cases hr : scanString s0 with
      | none => rw [hr] at h; cases h
      | some p =>
        rw [hr] at h; cases h
        obtain ⟨e, is, hi⟩ := ih p.1 p.2 hr
        have hc1 : c ≠ '\\' := fun h => hc (.inl h)
        have hc2 : 32 ≤ c.toNat := Nat.le_of_not_lt (fun h => hc (.inr h))
        have hc3 : c ≠ '"' := fun h => h1 h
        exact ⟨by rw [e]; simp, _, .plain hc3 hc1 hc2 hi⟩
    · exact h1
    · exact h2
    · exact h3

theorem items_unique {raw : Str} {is js : List JItem} (h : JItems raw is) (h' : JItems raw js) : is = js := by
  induction h generalizing js with
  | nil => cases h'; rfl
  | plain h1 h2 h3 _ ih =>
    cases h' with
    | plain _ _ _ h => rw [ih h]
    | escape => exact absurd rfl h2
    | code => exact absurd rfl h2
  | escape he _ ih =>
    cases h' with
    | plain _ h => exact absurd rfl h
    | escape he' h =>
      rw [esc_iff] at he he'
      rw [he] at he'; cases he'
      rw [ih h]
    | code => exact absurd rfl (esc_ne_u he)
  | code ha hb hc hd _ ih =>
    cases h' with
    | plain _ h => exact absurd rfl h
    | escape he => exact absurd rfl (esc_ne_u he)
    | code ha' hb' hc' hd' h =>
      rw [hex_iff] at *
      rw [ha] at ha'; rw [hb] at hb'; rw [hc] at hc'; rw [hd] at hd'
      cases ha'; cases hb'; cases hc'; cases hd'
      rw [ih h]

theorem loneChar_sur {u : Nat} (h : HighSur u ∨ LowSur u) : loneChar u = Char.ofNat 0xFFFD := by
  rw [loneChar, if_pos h]
theorem loneChar_not {u : Nat} (h : ¬ (HighSur u ∨ LowSur u)) : loneChar u = Char.ofNat u := by
  rw [loneChar, if_neg h]

theorem unquote_items {raw : Str} {is : List JItem} (h : JItems raw is) :
    unquote none raw = unitsStr is ∧ ∀ u, HighSur u → unquote (some u) raw = unitsStr (.code u :: is) := by
  induction h with
  | nil => 
    refine ⟨by simp [unquote, unitsStr], fun u hu => ?_⟩
    rw [unitsStr, loneChar_sur (.inl hu)]; simp [unquote]
  | @plain c s is h1 h2 h3 _ ih =>
    have e : ∀ hi, unquote hi (c :: s) = (if hi.isSome then [Char.ofNat 0xFFFD] else []) ++ c :: unquote none s := by
      intro hi
      rw [unquote]
      · intro _ _ _ _ _ h; exact absurd h h2
      · intro _ _ h; exact absurd h h2
    refine ⟨?_, fun u hu => ?_⟩
    · rw [e, ih.1, unitsStr]; rfl
    · rw [e, ih.1, unitsStr, loneChar_sur (.inl hu)]; rfl
  | @escape e c s is he _ ih =>
    have hu := esc_ne_u he
    rw [esc_iff] at he
    have e : ∀ hi, unquote hi ('\\' :: e :: s) = (if hi.isSome then [Char.ofNat 0xFFFD] else []) ++ c :: unquote none s := by
      intro hi
      rw [unquote, he]
      · rfl
      · intro _ _ _ _ _ h; exact absurd h hu
    refine ⟨?_, fun u hu => ?_⟩
    · rw [e, ih.1, unitsStr]; rfl
    · rw [e, ih.1, unitsStr, loneChar_sur (.inl hu)]; rfl
  | @code a b c d w x y z s is ha hb hc hd _ ih =>
    have h4 := (hex4_iff a b c d _).2 ⟨w, x, y, z, ha, hb, hc, hd, rfl⟩
    generalize 16 * (16 * (16 * w + x) + y) + z = v at h4
    have hi1 : ∀ k, (0xD800 ≤ k ∧ k < 0xDC00) ↔ HighSur k := by intro k; unfold HighSur; omega
    have hi2 : ∀ k, (0xDC00 ≤ k ∧ k < 0xE000) ↔ LowSur k := by intro k; unfold LowSur; omega
    have no : unitsStr (.code v :: is) = unquote none ('\\' :: 'u' :: a :: b :: c :: d :: s) := by
      rw [unquote, h4]
      simp only [Option.getD_some, hi1, hi2]
      by_cases hv : HighSur v
      · rw [if_pos hv, ih.2 v hv]
      · rw [if_neg hv]
        have tl : unitsStr (.code v :: is) = loneChar v :: unitsStr is := by
          cases is with
          | nil => rfl
          | cons i is =>
            cases i with
            | chr c => rfl
            | code l => rw [unitsStr, if_neg (fun h => hv h.1)]
        rw [tl, ih.1]
        by_cases hl : LowSur v
        · rw [if_pos hl, loneChar_sur (.inr hl)]
        · rw [if_neg hl, loneChar_not (by rintro (h | h); exact hv h; exact hl h)]
    refine ⟨no.symm, fun u hu => ?_⟩
    rw [unitsStr]
    rw [unquote, h4]
    simp only [Option.getD_some, hi1, hi2]
    by_cases hl : LowSur v
    · rw [if_pos hl, if_pos ⟨hu, hl⟩, ih.1, Nat.mul_comm]
    · rw [if_neg hl]
      have hn : ¬ (HighSur u ∧ LowSur v) := fun h => hl h.2
      rw [if_neg hn, loneChar_sur (.inl hu), no, unquote, h4]
      simp only [Option.getD_some, hi1, hi2]
      by_cases hv : HighSur v
      · rw [if_pos hv, if_pos hv]
      · rw [if_neg hv, if_neg hv, if_neg hl]

theorem scan_string {raw val : Str} (h : JString raw val) (s : Str) :
    scanString (raw ++ '"' :: s) = some (raw, s) ∧ unquote none raw = val := by
  obtain ⟨is, h, rfl⟩ := h
  exact ⟨scan_items h s, (unquote_items h).1⟩

theorem scan_string_inv {t raw s : Str} (h : scanString t = some (raw, s)) :
    t = raw ++ '"' :: s ∧ JString raw (unquote none raw) := by
  obtain ⟨e, is, hi⟩ := scan_inv t raw s h
  exact ⟨e, is, hi, (unquote_items hi).1⟩

/-! ### Numbers -/

theorem dig_mem (c : Char) : c ∈ (c! "0123456789") ↔ isDig c = true := by
  constructor
  · intro h
    exact (by decide : ∀ c ∈ (c! "0123456789"), isDig c = true) c h
  · intro h
    have h9 : 48 ≤ c.toNat ∧ c.toNat ≤ 57 := by simpa [isDig] using h
    have : ∀ n < 58, 48 ≤ n → Char.ofNat n ∈ (c! "0123456789") := by decide
    have := this c.toNat (by omega) h9.1
    rwa [Char.ofNat_toNat] at this

theorem jdigits_all {s : Str} : JDigits s ↔ s ≠ [] ∧ s.all isDig = true := by
  unfold JDigits
  rw [List.all_eq_true]
  simp only [dig_mem]

theorem spanDigits_inv (s : Str) : (spanDigits s).1.all isDig = true ∧ s = (spanDigits s).1 ++ (spanDigits s).2 := by
  induction s with
  | nil => exact ⟨rfl, rfl⟩
  | cons c s ih =>
    rw [spanDigits]
    split
    · rename_i hc
      exact ⟨by simp [hc]; simpa using ih.1, by rw [List.cons_append, ← ih.2]⟩
    · exact ⟨rfl, rfl⟩

/-- What may follow a value: nothing, a blank, or a character that ends it. -/
def ValEnd (rest : Str) : Prop := ∀ c r, rest = c :: r → c = ',' ∨ c = ']' ∨ c = '}' ∨ isJsonSpace c = true

theorem ValEnd.nil : ValEnd [] := by intro c r h; cases h
theorem ValEnd.cons {c : Char} {r : Str} (h : c = ',' ∨ c = ']' ∨ c = '}' ∨ isJsonSpace c = true) : ValEnd (c :: r) := by
  intro d r' e; cases e; exact h
theorem ValEnd.blank {a r : Str} (h : JBlank a) (hr : ValEnd r) : ValEnd (a ++ r) := by
  cases a with
  | nil => exact hr
  | cons c a => exact .cons (.inr (.inr (.inr ((space_iff c).2 (h c List.mem_cons_self)))))

/-- None of the characters that can go on a number. -/
theorem ValEnd.char {rest : Str} (h : ValEnd rest) : ∀ c r, rest = c :: r → isDig c = false ∧ c ≠ '.' ∧ c ≠ 'e' ∧ c ≠ 'E' := by
  intro c r e
  rcases h c r e with h | h | h | h
  · subst h; decide
  · subst h; decide
  · subst h; decide
  · rcases (space_iff c).1 h with h | h | h | h <;> (subst h; decide)

theorem span_digits {ds rest : Str} (h : JDigits ds) (hr : ∀ c r, rest = c :: r → isDig c = false) :
    spanDigits (ds ++ rest) = (ds, rest) := spanDigits_all (jdigits_all.1 h).2 hr

theorem scanInt_of {int rest : Str} (h : int = ['0'] ∨ (JDigits int ∧ int.head? ≠ some '0'))
    (hr : ∀ c r, rest = c :: r → isDig c = false) : scanInt (int ++ rest) = some (int, rest) := by
  rcases h with rfl | ⟨h, h0⟩
  · rfl
  · cases int with
    | nil => exact absurd rfl h.1
    | cons c s =>
      have hc : c ≠ '0' := by intro e; apply h0; rw [e]; rfl
      have hd : isDig c = true := (dig_mem c).1 (h.2 c List.mem_cons_self)
      have := span_digits h hr
      rw [List.cons_append] at this ⊢
      rw [scanInt, if_neg hc, if_pos hd, this]

theorem scanExp_of {exp rest : Str} (h : exp = [] ∨ ∃ e g ds, (e = 'e' ∨ e = 'E') ∧ (g = [] ∨ g = ['+'] ∨ g = ['-']) ∧ JDigits ds ∧ exp = e :: (g ++ ds))
    (hr : ValEnd rest) : scanExp (exp ++ rest) = some (exp, rest) := by
  rcases h with rfl | ⟨e, g, ds, he, hg, hd, rfl⟩
  · cases rest with
    | nil => rfl
    | cons c r =>
      have := hr.char c r rfl
      show scanExp (c :: r) = _
      simp only [scanExp, if_neg (show ¬ (c = 'e' ∨ c = 'E') by rintro (h | h); exact this.2.2.1 h; exact this.2.2.2 h)]
  · have hs := span_digits hd (rest := rest) (fun c r e => (hr.char c r e).1)
    have hx : ∀ pre, scanExpDigits pre (ds ++ rest) = some (pre ++ ds, rest) := by
      intro pre
      rw [scanExpDigits, hs, if_neg]
      simpa using hd.1
    have hc : ∃ c s, ds = c :: s ∧ ¬ (c = '+' ∨ c = '-') := by
      cases ds with
      | nil => exact absurd rfl hd.1
      | cons c s =>
        refine ⟨c, s, rfl, ?_⟩
        have := (dig_mem c).1 (hd.2 c List.mem_cons_self)
        rintro (h | h) <;> (subst h; cases this)
    rw [List.cons_append, List.append_assoc]
    rcases hg with rfl | rfl | rfl
    · obtain ⟨c, s, e', hc⟩ := hc
      have hx := hx [e]
      rw [e'] at hx ⊢
      show scanExp (e :: (c :: (s ++ rest))) = _
      rw [scanExp, if_pos he]
      show (if _ then _ else _) = _
      rw [if_neg hc]; exact hx
    · show scanExp (e :: ('+' :: (ds ++ rest))) = _
      rw [scanExp, if_pos he]
      exact hx [e, '+']
    · show scanExp (e :: ('-' :: (ds ++ rest))) = _
      rw [scanExp, if_pos he]
      exact hx [e, '-']

theorem scanFrac_of {frac rest : Str} (h : frac = [] ∨ ∃ ds, JDigits ds ∧ frac = '.' :: ds)
    (hr : ∀ c r, rest = c :: r → isDig c = false ∧ c ≠ '.') : scanFrac (frac ++ rest) = some (frac, rest) := by
  rcases h with rfl | ⟨ds, hd, rfl⟩
  · cases rest with
    | nil => rfl
    | cons c r =>
      show scanFrac (c :: r) = _
      rw [scanFrac, if_neg (hr c r rfl).2]
  · have hs := span_digits hd (rest := rest) (fun c r e => (hr c r e).1)
    show scanFrac ('.' :: (ds ++ rest)) = _
    rw [scanFrac, if_pos rfl, hs, if_neg]
    simpa using hd.1

theorem scanNumber_of {l rest : Str} (h : JNumber l) (hr : ValEnd rest) : scanNumber (l ++ rest) = some (l, rest) := by
  obtain ⟨sign, int, frac, exp, rfl, hs, hi, hf, he⟩ := h
  have h1 := scanExp_of he hr
  have head_exp : ∀ c r, exp ++ rest = c :: r → isDig c = false ∧ c ≠ '.' := by
    intro c r e
    rcases he with rfl | ⟨e', g, ds, he, -, -, rfl⟩
    · have := hr.char c r e; exact ⟨this.1, this.2.1⟩
    · rw [List.cons_append] at e; injection e with e _; subst e
      rcases he with rfl | rfl <;> decide
  have h2 := scanFrac_of hf (rest := exp ++ rest) head_exp
  have head_frac : ∀ c r, frac ++ (exp ++ rest) = c :: r → isDig c = false := by
    intro c r e
    rcases hf with rfl | ⟨ds, -, rfl⟩
    · exact (head_exp c r e).1
    · rw [List.cons_append] at e; injection e with e _; subst e; decide
  have h3 := scanInt_of hi (rest := frac ++ (exp ++ rest)) head_frac
  have hu : scanUnsigned (int ++ (frac ++ (exp ++ rest))) = some (int ++ frac ++ exp, rest) := by
    unfold scanUnsigned
    rw [h3]
    show (scanFrac _).bind _ = _
    rw [h2]
    show (scanExp _).bind _ = _
    rw [h1]; rfl
  rcases hs with rfl | rfl
  · simp only [List.nil_append, List.append_assoc] at hu ⊢
    have hc : ∃ c s, int = c :: s ∧ c ≠ '-' := by
      rcases hi with rfl | ⟨hi, -⟩
      · exact ⟨_, _, rfl, by decide⟩
      · cases int with
        | nil => exact absurd rfl hi.1
        | cons c s =>
          refine ⟨c, s, rfl, ?_⟩
          have := (dig_mem c).1 (hi.2 c List.mem_cons_self)
          rintro rfl; cases this
    obtain ⟨c, s, e, hc⟩ := hc
    rw [e] at hu ⊢
    rw [List.cons_append] at hu ⊢
    rw [scanNumber, if_neg hc]
    exact hu
  · simp only [List.append_assoc] at hu ⊢
    show scanNumber ('-' :: (int ++ (frac ++ (exp ++ rest)))) = _
    rw [scanNumber, if_pos rfl, hu]; rfl

theorem scanInt_inv {s i r : Str} (h : scanInt s = some (i, r)) :
    s = i ++ r ∧ (i = ['0'] ∨ (JDigits i ∧ i.head? ≠ some '0')) := by
  cases s with
  | nil => cases h
  | cons c s =>
    rw [scanInt] at h
    split at h
    · rename_i hc; cases h; exact ⟨by rw [hc]; rfl, .inl rfl⟩
    · rename_i hc
      split at h
      · rename_i hd
        have := spanDigits_inv (c :: s)
        have e : spanDigits (c :: s) = (i, r) := by injection h
        rw [e] at this
        have hi : ∃ t, i = c :: t := by
          rw [spanDigits, if_pos hd] at e
          cases e; exact ⟨_, rfl⟩
        obtain ⟨t, rfl⟩ := hi
        refine ⟨this.2, .inr ⟨jdigits_all.2 ⟨by simp, this.1⟩, ?_⟩⟩
        intro h; apply hc; injection h
      · cases h

theorem scanFrac_inv {s i r : Str} (h : scanFrac s = some (i, r)) : s = i ++ r ∧ (i = [] ∨ ∃ ds, JDigits ds ∧ i = '.' :: ds) := by
  cases s with
  | nil => cases h; exact ⟨rfl, .inl rfl⟩
  | cons c s =>
    rw [scanFrac] at h
    split at h
    · rename_i hc
      split at h
      · cases h
      · rename_i hd
        cases h
        have := spanDigits_inv s
        refine ⟨by rw [hc, List.cons_append, ← this.2], .inr ⟨_, jdigits_all.2 ⟨by simpa using hd, this.1⟩, rfl⟩⟩
    · cases h; exact ⟨rfl, .inl rfl⟩

theorem scanExpDigits_inv {pre s i r : Str} (h : scanExpDigits pre s = some (i, r)) : ∃ ds, JDigits ds ∧ i = pre ++ ds ∧ s = ds ++ r := by
  rw [scanExpDigits] at h
  split at h
  · cases h
  · rename_i hd
    cases h
    have := spanDigits_inv s
    exact ⟨_, jdigits_all.2 ⟨by simpa using hd, this.1⟩, rfl, this.2⟩

theorem scanExp_inv {s i r : Str} (h : scanExp s = some (i, r)) : s = i ++ r ∧
    (i = [] ∨ ∃ e g ds, (e = 'e' ∨ e = 'E') ∧ (g = [] ∨ g = ['+'] ∨ g = ['-']) ∧ JDigits ds ∧ i = e :: (g ++ ds)) := by
  cases s with
  | nil => cases h; exact ⟨rfl, .inl rfl⟩
  | cons c s =>
    simp only [scanExp] at h
    split at h
    · rename_i hc
      split at h
      · cases h
      · rename_i g t
        split at h
        · rename_i hg
          obtain ⟨ds, hd, rfl, rfl⟩ := scanExpDigits_inv h
          exact ⟨rfl, .inr ⟨c, [g], ds, hc, .inr (by rcases hg with h | h <;> simp [h]), hd, rfl⟩⟩
        · obtain ⟨ds, hd, rfl, e⟩ := scanExpDigits_inv h
          exact ⟨by rw [e]; rfl, .inr ⟨c, [], ds, hc, .inl rfl, hd, rfl⟩⟩
    · cases h; exact ⟨rfl, .inl rfl⟩

theorem scanUnsigned_inv {s l r : Str} (h : scanUnsigned s = some (l, r)) : s = l ++ r ∧ ∃ int frac exp, l = int ++ frac ++ exp ∧
    (int = ['0'] ∨ (JDigits int ∧ int.head? ≠ some '0')) ∧ (frac = [] ∨ ∃ ds, JDigits ds ∧ frac = '.' :: ds) ∧
    (exp = [] ∨ ∃ e g ds, (e = 'e' ∨ e = 'E') ∧ (g = [] ∨ g = ['+'] ∨ g = ['-']) ∧ JDigits ds ∧ exp = e :: (g ++ ds)) := by
  unfold scanUnsigned at h
  cases h1 : scanInt s with
  | none => rw [h1] at h; cases h
  | some p =>
    obtain ⟨i, r1⟩ := p
    rw [h1] at h
    have h : (scanFrac r1).bind (fun (p : Str × Str) => (scanExp p.2).bind (fun (q : Str × Str) => some (i ++ p.1 ++ q.1, q.2))) = some (l, r) := h
    cases h2 : scanFrac r1 with
    | none => rw [h2] at h; cases h
    | some p =>
      obtain ⟨f, r2⟩ := p
      rw [h2, Option.bind_some] at h
      cases h3 : scanExp r2 with
      | none => rw [h3] at h; cases h
      | some p =>
        obtain ⟨e, r3⟩ := p
        rw [h3, Option.bind_some] at h
        cases h
        obtain ⟨e1, hi⟩ := scanInt_inv h1
        obtain ⟨e2, hf⟩ := scanFrac_inv h2
        obtain ⟨e3, he⟩ := scanExp_inv h3
        refine ⟨by rw [e1, e2, e3]; simp, i, f, e, rfl, hi, hf, he⟩

theorem scanNumber_inv {s l r : Str} (h : scanNumber s = some (l, r)) : s = l ++ r ∧ JNumber l := by
  cases s with
  | nil => cases h
  | cons c s =>
    rw [scanNumber] at h
    split at h
    · rename_i hc
      subst hc
      cases h1 : scanUnsigned s with
      | none => rw [h1] at h; cases h
      | some p =>
        rw [h1] at h; cases h
        obtain ⟨e, int, frac, exp, e', h⟩ := scanUnsigned_inv h1
        exact ⟨by rw [e]; rfl, ['-'], int, frac, exp, by rw [e']; rfl, .inr rfl, h⟩
    · obtain ⟨e, int, frac, exp, e', h⟩ := scanUnsigned_inv h
      exact ⟨e, [], int, frac, exp, by rw [e']; rfl, .inl rfl, h⟩

theorem number_head {l : Str} (h : JNumber l) : ∃ c s, l = c :: s ∧ (c = '-' ∨ isDig c = true) := by
  obtain ⟨sign, int, frac, exp, rfl, hs, hi, -, -⟩ := h
  rcases hs with rfl | rfl
  · rcases hi with rfl | ⟨hi, -⟩
    · exact ⟨_, _, rfl, .inr (by decide)⟩
    · cases int with
      | nil => exact absurd rfl hi.1
      | cons c s => exact ⟨c, _, rfl, .inr ((dig_mem c).1 (hi.2 c List.mem_cons_self))⟩
  · exact ⟨_, _, rfl, .inl rfl⟩

/-! ### Documents -/

theorem digit_head {c : Char} (h : c = '-' ∨ isDig c = true) : isJsonSpace c = false ∧ c ≠ ']' ∧ c ≠ '}' ∧
    c ≠ '"' ∧ c ≠ '[' ∧ c ≠ '{' ∧ c ≠ 'n' ∧ c ≠ 't' ∧ c ≠ 'f' := by
  rcases h with rfl | h
  · decide
  · have := (dig_mem c).2 h
    exact (by decide : ∀ c ∈ (c! "0123456789"), isJsonSpace c = false ∧ c ≠ ']' ∧ c ≠ '}' ∧
      c ≠ '"' ∧ c ≠ '[' ∧ c ≠ '{' ∧ c ≠ 'n' ∧ c ≠ 't' ∧ c ≠ 'f') c this

theorem jtext_head {v : JV} {t : Str} (h : JText v t) : ∃ c s, t = c :: s ∧ isJsonSpace c = false ∧ c ≠ ']' ∧ c ≠ '}' := by
  cases h with
  | null => exact ⟨_, _, rfl, by decide⟩
  | true => exact ⟨_, _, rfl, by decide⟩
  | false => exact ⟨_, _, rfl, by decide⟩
  | num h =>
    obtain ⟨c, s, e, hc⟩ := number_head h
    have := digit_head hc
    exact ⟨c, s, e, this.1, this.2.1, this.2.2.1⟩
  | str _ => exact ⟨_, _, rfl, by decide⟩
  | arr0 _ => exact ⟨_, _, rfl, by decide⟩
  | arr _ => exact ⟨_, _, rfl, by decide⟩
  | obj0 _ => exact ⟨_, _, rfl, by decide⟩
  | obj _ => exact ⟨_, _, rfl, by decide⟩

theorem scanValue_blank {a : Str} (h : JBlank a) (n : Nat) (s : Str) : scanValue n (a ++ s) = scanValue n s := by
  cases n with
  | zero => rw [scanValue, scanValue]
  | succ n => rw [scanValue, scanValue, skip_blank h]

theorem scanMembers_blank {a : Str} (h : JBlank a) (n : Nat) (s : Str) : scanMembers n (a ++ s) = scanMembers n s := by
  cases n with
  | zero => rw [scanMembers, scanMembers]
  | succ n => rw [scanMembers, scanMembers, skip_blank h]

theorem scanValue_number {n : Nat} {l rest : Str} (h : JNumber l) (hr : ValEnd rest) :
    scanValue (n + 1) (l ++ rest) = some (.num l, rest) := by
  have hs := scanNumber_of h hr
  obtain ⟨c, s, e, hc⟩ := number_head h
  obtain ⟨h0, -, -, h1, h2, h3, h4, h5, h6⟩ := digit_head hc
  rw [e, List.cons_append] at hs ⊢
  rw [scanValue, skipSpace_head h0]
  split <;> rename_i heq
  all_goals first
    | (cases heq; contradiction)
    | (cases heq; done)
    | (rw [hs]; rfl)

theorem scanValue_arr {n : Nat} {s : Str} : scanValue (n + 1) ('[' :: s) =
    match skipSpace s with
    | ']' :: t => some (.arr [], t)
    | _ => (scanElems n s).map (fun p => (.arr p.1, p.2)) := by
  rw [scanValue, skipSpace_head (by decide)]
  rfl

theorem scanValue_obj {n : Nat} {s : Str} : scanValue (n + 1) ('{' :: s) =
    match skipSpace s with
    | '}' :: t => some (.obj [], t)
    | _ => (scanMembers n s).map (fun p => (.obj p.1, p.2)) := by
  rw [scanValue, skipSpace_head (by decide)]
  rfl

theorem scanValue_str {n : Nat} {s : Str} : scanValue (n + 1) ('"' :: s) =
    (scanString s).map (fun p => (.str p.1 (unquote none p.1), p.2)) := by
  rw [scanValue, skipSpace_head (by decide)]
  rfl

theorem skip_stop {a : Str} (h : JBlank a) {c : Char} {s : Str} (hc : isJsonSpace c = false) : skipSpace (a ++ c :: s) = c :: s := by
  rw [skip_blank h, skipSpace_head hc]

mutual
/-- The scanner reads every text of a document, given as many steps as the text has characters. -/
theorem scanValue_jtext : {v : JV} → {t : Str} → JText v t → (n : Nat) → t.length ≤ n → (rest : Str) → ValEnd rest →
    scanValue n (t ++ rest) = some (v, rest)
  | _, _, h, 0, hn, rest, hr => by
    obtain ⟨c, s, e, -⟩ := jtext_head h
    rw [e] at hn; simp at hn
  | _, _, .null, n + 1, _, rest, _ => by rfl
  | _, _, .true, n + 1, _, rest, _ => by rfl
  | _, _, .false, n + 1, _, rest, _ => by rfl
  | _, _, .num h, n + 1, _, rest, hr => scanValue_number h hr
  | _, _, .str (raw := raw) h, n + 1, _, rest, _ => by
    obtain ⟨h1, h2⟩ := scan_string h rest
    rw [List.cons_append, List.append_assoc, scanValue_str]
    show (scanString (raw ++ '"' :: rest)).map _ = _
    rw [h1, ← h2]; rfl
  | _, _, .arr0 (b := b) h, n + 1, _, rest, _ => by
    rw [List.cons_append, List.append_assoc, scanValue_arr, List.singleton_append, skip_stop h (by decide)]
    rfl
  | _, _, .arr (t := t) h, n + 1, hn, rest, _ => by
    obtain ⟨⟨c, s, e, hc⟩, ih⟩ := scanElems_jtext h n (by simp at hn ⊢; omega) rest
    rw [List.cons_append, List.append_assoc, scanValue_arr]
    show (match skipSpace (t ++ ']' :: rest) with | ']' :: t => _ | _ => (scanElems n (t ++ ']' :: rest)).map _) = _
    rw [ih, e]
    split
    · rename_i heq; injection heq with heq _; exact absurd heq hc
    · rfl
  | _, _, .obj0 (b := b) h, n + 1, _, rest, _ => by
    rw [List.cons_append, List.append_assoc, scanValue_obj, List.singleton_append, skip_stop h (by decide)]
    rfl
  | _, _, .obj (t := t) h, n + 1, hn, rest, _ => by
    obtain ⟨⟨s, e⟩, ih⟩ := scanMembers_jtext h n (by simp at hn ⊢; omega) rest
    rw [List.cons_append, List.append_assoc, scanValue_obj]
    show (match skipSpace (t ++ '}' :: rest) with | '}' :: t => _ | _ => (scanMembers n (t ++ '}' :: rest)).map _) = _
    rw [ih, e]
    rfl
theorem scanElems_jtext : {vs : List JV} → {t : Str} → JElems vs t → (n : Nat) → t.length + 1 ≤ n → (rest : Str) →
    (∃ c s, skipSpace (t ++ ']' :: rest) = c :: s ∧ c ≠ ']') ∧ scanElems n (t ++ ']' :: rest) = some (vs, rest)
  | _, _, _, 0, hn, rest => by omega
  | _, _, .one (v := v) (a := a) (t := t) (b := b) ha h hb, n + 1, hn, rest => by
    have ih := scanValue_jtext h n (by simp at hn; omega) (b ++ ']' :: rest) (.blank hb (.cons (by decide)))
    obtain ⟨c, s, e, h0, h1, -⟩ := jtext_head h
    have ev : a ++ t ++ b ++ ']' :: rest = a ++ (t ++ (b ++ ']' :: rest)) := by simp
    rw [ev]
    refine ⟨⟨c, s ++ (b ++ ']' :: rest), by rw [e, List.cons_append, skip_stop ha h0], h1⟩, ?_⟩
    rw [scanElems, scanValue_blank ha, ih]
    show (match skipSpace (b ++ ']' :: rest) with | ',' :: t => _ | ']' :: t => some ([v], t) | _ => none) = _
    rw [skip_stop hb (by decide)]
    rfl
  | _, _, .more (v := v) (a := a) (t := t) (b := b) (vs := vs) (r := r) ha h hb hr, n + 1, hn, rest => by
    have ih := scanValue_jtext h n (by simp at hn; omega) (b ++ ',' :: (r ++ ']' :: rest)) (.blank hb (.cons (by decide)))
    obtain ⟨-, ih2⟩ := scanElems_jtext hr n (by simp at hn; omega) rest
    obtain ⟨c, s, e, h0, h1, -⟩ := jtext_head h
    have ev : a ++ t ++ b ++ ',' :: r ++ ']' :: rest = a ++ (t ++ (b ++ ',' :: (r ++ ']' :: rest))) := by simp
    rw [ev]
    refine ⟨⟨c, s ++ (b ++ ',' :: (r ++ ']' :: rest)), by rw [e, List.cons_append, skip_stop ha h0], h1⟩, ?_⟩
    rw [scanElems, scanValue_blank ha, ih]
    show (match skipSpace (b ++ ',' :: (r ++ ']' :: rest)) with | ',' :: t => (scanElems n t).map _ | ']' :: t => some ([v], t) | _ => none) = _
    rw [skip_stop hb (by decide)]
    show (scanElems n (r ++ ']' :: rest)).map _ = _
    rw [ih2]; rfl
theorem scanMembers_jtext : {ms : List ((Str × Str) × JV)} → {t : Str} → JMembers ms t → (n : Nat) → t.length + 1 ≤ n → (rest : Str) →
    (∃ s, skipSpace (t ++ '}' :: rest) = '"' :: s) ∧ scanMembers n (t ++ '}' :: rest) = some (ms, rest)
  | _, _, _, 0, hn, rest => by omega
  | _, _, .one (k := k) (k' := k') (v := v) (a := a) (b := b) (c := c) (t := t) (d := d) ha hk hb hc h hd, n + 1, hn, rest => by
    have ih := scanValue_jtext h n (by simp at hn; omega) (d ++ '}' :: rest) (.blank hd (.cons (by decide)))
    have ev : a ++ '"' :: (k ++ '"' :: (b ++ ':' :: (c ++ t ++ d))) ++ '}' :: rest =
        a ++ '"' :: (k ++ '"' :: (b ++ ':' :: (c ++ (t ++ (d ++ '}' :: rest))))) := by simp
    rw [ev]
    refine ⟨⟨_, skip_stop ha (by decide)⟩, ?_⟩
    obtain ⟨h1, h2⟩ := scan_string hk (b ++ ':' :: (c ++ (t ++ (d ++ '}' :: rest))))
    rw [scanMembers_blank ha, scanMembers, skipSpace_head (by decide)]
    simp only [h1]
    rw [skip_stop hb (by decide)]
    simp only [scanValue_blank hc, ih]
    rw [skip_stop hd (by decide), h2]
    rfl
  | _, _, .more (k := k) (k' := k') (v := v) (a := a) (b := b) (c := c) (t := t) (d := d) (ms := ms) (r := r) ha hk hb hc h hd hr, n + 1, hn, rest => by
    have ih := scanValue_jtext h n (by simp at hn; omega) (d ++ ',' :: (r ++ '}' :: rest)) (.blank hd (.cons (by decide)))
    obtain ⟨-, ih2⟩ := scanMembers_jtext hr n (by simp at hn; omega) rest
    have ev : a ++ '"' :: (k ++ '"' :: (b ++ ':' :: (c ++ t ++ d ++ ',' :: r))) ++ '}' :: rest =
        a ++ '"' :: (k ++ '"' :: (b ++ ':' :: (c ++ (t ++ (d ++ ',' :: (r ++ '}' :: rest)))))) := by simp
    rw [ev]
    refine ⟨⟨_, skip_stop ha (by decide)⟩, ?_⟩
    obtain ⟨h1, h2⟩ := scan_string hk (b ++ ':' :: (c ++ (t ++ (d ++ ',' :: (r ++ '}' :: rest)))))
    rw [scanMembers_blank ha, scanMembers, skipSpace_head (by decide)]
    simp only [h1]
    rw [skip_stop hb (by decide)]
    simp only [scanValue_blank hc, ih]
    rw [skip_stop hd (by decide), h2]
    simp only [ih2]
    rfl
end

theorem expect_inv {p s t : Str} (h : expect p s = some t) : s = p ++ t := by
  induction p generalizing s with
  | nil => simp only [expect] at h; cases h; rfl
  | cons c p ih =>
    cases s with
    | nil => simp [expect] at h
    | cons d s =>
      rw [expect] at h
      split at h
      · rename_i e; rw [ih h, e]; rfl
      · cases h

/-- Whatever the scanner reads is a text of the document it gives. -/
theorem scan_sound (n : Nat) :
    (∀ s v r, scanValue n s = some (v, r) → ∃ a t, JBlank a ∧ JText v t ∧ s = a ++ t ++ r) ∧
    (∀ s vs r, scanElems n s = some (vs, r) → ∃ t, JElems vs t ∧ s = t ++ ']' :: r) ∧
    (∀ s ms r, scanMembers n s = some (ms, r) → ∃ t, JMembers ms t ∧ s = t ++ '}' :: r) := by
  induction n with
  | zero =>
    refine ⟨?_, ?_, ?_⟩ <;> intro s v r h
    · rw [scanValue] at h; cases h
    · rw [scanElems] at h; cases h
    · rw [scanMembers] at h; cases h
  | succ n ih =>
    obtain ⟨ihv, ihe, ihm⟩ := ih
    refine ⟨?_, ?_, ?_⟩
    · intro s v r h
      obtain ⟨a, ha, es⟩ := skip_inv s
      rw [scanValue] at h
      refine ⟨a, ?_⟩
      split at h
      · cases h
      · rename_i s' hs
        cases hr : scanString s' with
        | none => rw [hr] at h; cases h
        | some p =>
          rw [hr] at h; cases h
          obtain ⟨e, hj⟩ := scan_string_inv hr
          exact ⟨_, ha, .str hj, by rw [es, hs, e]; simp⟩
      · rename_i s' hs
        split at h
        · rename_i t ht
          cases h
          obtain ⟨b, hb, eb⟩ := skip_inv s'
          exact ⟨_, ha, .arr0 hb, by rw [es, hs, eb, ht]; simp⟩
        · cases hr : scanElems n s' with
          | none => rw [hr] at h; cases h
          | some p =>
            rw [hr] at h; cases h
            obtain ⟨t, hj, e⟩ := ihe _ _ _ hr
            exact ⟨_, ha, .arr hj, by rw [es, hs, e]; simp⟩
      · rename_i s' hs
        split at h
        · rename_i t ht
          cases h
          obtain ⟨b, hb, eb⟩ := skip_inv s'
          exact ⟨_, ha, .obj0 hb, by rw [es, hs, eb, ht]; simp⟩
        · cases hr : scanMembers n s' with
          | none => rw [hr] at h; cases h
          | some p =>
            rw [hr] at h; cases h
            obtain ⟨t, hj, e⟩ := ihm _ _ _ hr
            exact ⟨_, ha, .obj hj, by rw [es, hs, e]; simp⟩
      · rename_i s' hs
        cases hr : expect (c! "ull") s' with
        | none => rw [hr] at h; cases h
        | some p =>
          rw [hr] at h; cases h
          exact ⟨_, ha, .null, by rw [es, hs, expect_inv hr]; simp⟩
      · rename_i s' hs
        cases hr : expect (c! "rue") s' with
        | none => rw [hr] at h; cases h
        | some p =>
          rw [hr] at h; cases h
          exact ⟨_, ha, .true, by rw [es, hs, expect_inv hr]; simp⟩
      · rename_i s' hs
        cases hr : expect (c! "alse") s' with
        | none => rw [hr] at h; cases h
        | some p =>
          rw [hr] at h; cases h
          exact ⟨_, ha, .false, by rw [es, hs, expect_inv hr]; simp⟩
      · cases hr : scanNumber (skipSpace s) with
        | none => rw [hr] at h; cases h
        | some p =>
          rw [hr] at h; cases h
          obtain ⟨e, hj⟩ := scanNumber_inv hr
          exact ⟨_, ha, .num hj, by rw [List.append_assoc, ← e]; exact es⟩
    · intro s vs r h
      rw [scanElems] at h
      cases hv : scanValue n s with
      | none => rw [hv] at h; cases h
      | some p =>
        obtain ⟨v, s1⟩ := p
        rw [hv] at h
        obtain ⟨a, t, ha, ht, e⟩ := ihv _ _ _ hv
        obtain ⟨b, hb, eb⟩ := skip_inv s1
        have h : (match skipSpace s1 with
          | ',' :: t => (scanElems n t).map (fun (p : List JV × Str) => (v :: p.1, p.2))
          | ']' :: t => some ([v], t)
          | _ => none) = some (vs, r) := h
        split at h
        · rename_i s2 hs
          cases hr : scanElems n s2 with
          | none => rw [hr] at h; cases h
          | some p =>
            rw [hr] at h; cases h
            obtain ⟨t2, hj, e2⟩ := ihe _ _ _ hr
            exact ⟨_, .more ha ht hb hj, by rw [e, eb, hs, e2]; simp⟩
        · rename_i s2 hs
          cases h
          exact ⟨_, .one ha ht hb, by rw [e, eb, hs]; simp⟩
        · cases h
    · intro s ms r h
      obtain ⟨a, ha, es⟩ := skip_inv s
      rw [scanMembers] at h
      split at h
      · rename_i s1 hs
        cases hk : scanString s1 with
        | none => rw [hk] at h; cases h
        | some p =>
          obtain ⟨k, s2⟩ := p
          obtain ⟨ek, hj⟩ := scan_string_inv hk
          simp only [hk] at h
          obtain ⟨b, hb, eb⟩ := skip_inv s2
          split at h
          · rename_i s3 hs3
            cases hv : scanValue n s3 with
            | none => rw [hv] at h; cases h
            | some p =>
              obtain ⟨v, s4⟩ := p
              simp only [hv] at h
              obtain ⟨c, t, hc, ht, e⟩ := ihv _ _ _ hv
              obtain ⟨d, hd, ed⟩ := skip_inv s4
              split at h
              · rename_i s5 hs5
                cases hr : scanMembers n s5 with
                | none => rw [hr] at h; cases h
                | some p =>
                  rw [hr] at h; cases h
                  obtain ⟨t2, hj2, e2⟩ := ihm _ _ _ hr
                  exact ⟨_, .more ha hj hb hc ht hd hj2, by rw [es, hs, ek, eb, hs3, e, ed, hs5, e2]; simp⟩
              · rename_i s5 hs5
                cases h
                exact ⟨_, .one ha hj hb hc ht hd, by rw [es, hs, ek, eb, hs3, e, ed, hs5]; simp⟩
              · cases h
          · cases h
      · cases h

mutual
theorem nested_iff : (v : JV) → (n : Nat) → (Nested n v ↔ v.depth ≤ n)
  | .null, n => ⟨fun _ => by simp [JV.depth], fun _ => .null⟩
  | .bool _, n => ⟨fun _ => by simp [JV.depth], fun _ => .bool⟩
  | .num _, n => ⟨fun _ => by simp [JV.depth], fun _ => .num⟩
  | .str _ _, n => ⟨fun _ => by simp [JV.depth], fun _ => .str⟩
  | .arr vs, n => by
    rw [JV.depth]
    constructor
    · intro h
      cases h with
      | arr h => have := (nestedElems_iff vs _).1 h; omega
    · intro h
      cases n with
      | zero => omega
      | succ n => exact .arr ((nestedElems_iff vs n).2 (by omega))
  | .obj ms, n => by
    rw [JV.depth]
    constructor
    · intro h
      cases h with
      | obj h => have := (nestedMembers_iff ms _).1 h; omega
    · intro h
      cases n with
      | zero => omega
      | succ n => exact .obj ((nestedMembers_iff ms n).2 (by omega))
theorem nestedElems_iff : (vs : List JV) → (n : Nat) → (NestedElems n vs ↔ JV.depthElems vs ≤ n)
  | [], n => ⟨fun _ => by simp [JV.depthElems], fun _ => .nil⟩
  | v :: vs, n => by
    rw [JV.depthElems]
    constructor
    · intro h
      cases h with
      | cons h1 h2 => have := (nested_iff v n).1 h1; have := (nestedElems_iff vs n).1 h2; omega
    · intro h
      exact .cons ((nested_iff v n).2 (by omega)) ((nestedElems_iff vs n).2 (by omega))
theorem nestedMembers_iff : (ms : List ((Str × Str) × JV)) → (n : Nat) → (NestedMembers n ms ↔ JV.depthMembers ms ≤ n)
  | [], n => ⟨fun _ => by simp [JV.depthMembers], fun _ => .nil⟩
  | (k, v) :: ms, n => by
    rw [JV.depthMembers]
    constructor
    · intro h
      cases h with
      | cons h1 h2 => have := (nested_iff v n).1 h1; have := (nestedMembers_iff ms n).1 h2; omega
    · intro h
      exact .cons ((nested_iff v n).2 (by omega)) ((nestedMembers_iff ms n).2 (by omega))
end

theorem scanValue_document {v : JV} {s : Str} (h : JDocument v s) :
    ∃ b, JBlank b ∧ scanValue (s.length + 1) s = some (v, b) := by
  obtain ⟨a, t, b, ha, ht, hb, rfl⟩ := h
  refine ⟨b, hb, ?_⟩
  have := scanValue_jtext ht ((a ++ t ++ b).length + 1) (by simp; omega) b (by
    have := ValEnd.blank hb .nil
    rwa [List.append_nil] at this)
  rw [List.append_assoc, scanValue_blank ha, ← List.append_assoc]
  exact this

/-- C71, the reader: for every text and every document, the reader gives the document
exactly when the text is a JSON text of it and its brackets are no more than 10000 deep. -/
theorem C71_reads (s : Str) (v : JV) : readJson s = some v ↔ JDocument v s ∧ Nested 10000 v := by
  rw [nested_iff]
  constructor
  · intro h
    unfold readJson at h
    cases hv : scanValue (s.length + 1) s with
    | none => rw [hv] at h; cases h
    | some p =>
      obtain ⟨w, r⟩ := p
      simp only [hv] at h
      split at h
      · rename_i hr
        cases h
        obtain ⟨a, t, ha, ht, e⟩ := (scan_sound _).1 _ _ _ hv
        exact ⟨⟨a, t, r, ha, ht, skip_nil (by simpa using hr.1), e⟩, hr.2⟩
      · cases h
  · rintro ⟨h, hd⟩
    obtain ⟨b, hb, hs⟩ := scanValue_document h
    unfold readJson
    simp only [hs]
    rw [if_pos ⟨by rw [skip_blanks hb]; rfl, hd⟩]

/-- C71, no text has two meanings: a JSON text is a text of one document only, blanks,
escapes and all. -/
theorem C71_unique {s : Str} {v w : JV} (h : JDocument v s) (h' : JDocument w s) : v = w := by
  obtain ⟨b, hb, hs⟩ := scanValue_document h
  obtain ⟨b', hb', hs'⟩ := scanValue_document h'
  rw [hs] at hs'
  cases hs'; rfl

example : ∃ v, JDocument v (c! " {\"a\" : [1e5, \"\\u0041\"]}\n") := ⟨_, ((C71_reads _ _).1 (by rfl)).1⟩

/-- C71, the texts refused: exactly those that are no JSON text, or are too deep. -/
theorem C71_refuses (s : Str) : readJson s = none ↔ ∀ v, JDocument v s → ¬ Nested 10000 v := by
  constructor
  · intro h v hv hn
    rw [(C71_reads s v).2 ⟨hv, hn⟩] at h; cases h
  · intro h
    cases hr : readJson s with
    | none => rfl
    | some v =>
      obtain ⟨h1, h2⟩ := (C71_reads s v).1 hr
      exact absurd h2 (h v h1)

/-- A text with blanks, an escaped quote, a surrogate pair, and a lone surrogate. -/
example : readJson (c! " [ \"a\\\"\\uD83D\\ude00\\udc00\" , -1.5e+3 ,{} ] ") =
    some (.arr [.str (c! "a\\\"\\uD83D\\ude00\\udc00") (c! "a\"😀�"), .num (c! "-1.5e+3"), .obj []]) := by rfl

example : JDocument (.arr [.null, .num (c! "0")]) (c! "[null, 0]") :=
  ((C71_reads _ _).1 (by rfl)).1

/-- Leading zeros, a missing comma, a trailing comma and two values are refused. -/
example : readJson (c! "01") = none ∧ readJson (c! "[1 2]") = none ∧ readJson (c! "[1,]") = none ∧
    readJson (c! "1 2") = none ∧ readJson (c! "{\"a\" 1}") = none := by decide +kernel

end EDTF
