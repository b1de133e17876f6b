/- Lemmas about writing and reading JSON. -/
import Verif.Json
import Verif.LemmasStr
namespace EDTF
open Spec

/-! ### Strings -/

theorem small_char {c : Char} {k : Nat} (h : c.toNat = k) : c = Char.ofNat k := by
  rw [← h]; exact (Char.ofNat_toNat c).symm

theorem esc_table : ∀ n < 128, (Char.ofNat n).toNat = n ∧
    hex4 '0' '0' (hexChar (n / 16)) (hexChar (n % 16)) = some n := by decide +kernel

theorem escChar_cases (c : Char) :
    (escChar c = [c] ∧ c ≠ '"' ∧ c ≠ '\\' ∧ 32 ≤ c.toNat) ∨
    (∃ e, escChar c = ['\\', e] ∧ e ≠ 'u' ∧ simpleEsc e = some c) ∨
    (∃ w x y z, escChar c = ['\\', 'u', w, x, y, z] ∧ hex4 w x y z = some c.toNat ∧ c.toNat < 0xD800) := by
  unfold escChar
  by_cases h1 : c = '"'
  · subst h1; exact .inr (.inl ⟨'"', rfl, by decide, rfl⟩)
  rw [if_neg h1]
  by_cases h2 : c = '\\'
  · subst h2; exact .inr (.inl ⟨'\\', rfl, by decide, rfl⟩)
  rw [if_neg h2]
  by_cases h3 : c.toNat = 8
  · rw [if_pos h3, small_char h3]; exact .inr (.inl ⟨'b', rfl, by decide, rfl⟩)
  rw [if_neg h3]
  by_cases h4 : c.toNat = 12
  · rw [if_pos h4, small_char h4]; exact .inr (.inl ⟨'f', rfl, by decide, rfl⟩)
  rw [if_neg h4]
  by_cases h5 : c.toNat = 10
  · rw [if_pos h5, small_char h5]; exact .inr (.inl ⟨'n', rfl, by decide, rfl⟩)
  rw [if_neg h5]
  by_cases h6 : c.toNat = 13
  · rw [if_pos h6, small_char h6]; exact .inr (.inl ⟨'r', rfl, by decide, rfl⟩)
  rw [if_neg h6]
  by_cases h7 : c.toNat = 9
  · rw [if_pos h7, small_char h7]; exact .inr (.inl ⟨'t', rfl, by decide, rfl⟩)
  rw [if_neg h7]
  by_cases h8 : c.toNat < 32 ∨ c = '<' ∨ c = '>' ∨ c = '&'
  · rw [if_pos h8]
    have hl : c.toNat < 128 := by
      rcases h8 with h | h | h | h
      · omega
      all_goals (subst h; decide)
    exact .inr (.inr ⟨_, _, _, _, rfl, (esc_table _ hl).2, by omega⟩)
  rw [if_neg h8]
  by_cases h9 : c.toNat = 0x2028
  · rw [if_pos h9, h9]; exact .inr (.inr ⟨_, _, _, _, rfl, rfl, by decide⟩)
  rw [if_neg h9]
  by_cases h10 : c.toNat = 0x2029
  · rw [if_pos h10, h10]; exact .inr (.inr ⟨_, _, _, _, rfl, rfl, by decide⟩)
  rw [if_neg h10]
  exact .inl ⟨rfl, h1, h2, by
    apply Nat.le_of_not_lt
    intro h
    exact h8 (.inl h)⟩

theorem scanString_plain {c : Char} {s : Str} (h1 : c ≠ '"') (h2 : c ≠ '\\') (h3 : 32 ≤ c.toNat) :
    scanString (c :: s) = (scanString s).map (fun p => (c :: p.1, p.2)) := by
  rw [scanString, if_neg (by rintro (h | h); exact h2 h; omega)]
  · intro h; exact h1 h
  · intro _ _ _ _ _ h; exact absurd h h2
  · intro _ _ h; exact absurd h h2

theorem scanString_simple {e x : Char} {s : Str} (h1 : e ≠ 'u') (h2 : simpleEsc e = some x) :
    scanString ('\\' :: e :: s) = (scanString s).map (fun p => ('\\' :: e :: p.1, p.2)) := by
  rw [scanString, h2]
  intro _ _ _ _ _ h; exact absurd h h1

theorem scanString_u {a b c d : Char} {n : Nat} {s : Str} (h : hex4 a b c d = some n) :
    scanString ('\\' :: 'u' :: a :: b :: c :: d :: s) = (scanString s).map (fun p => ('\\' :: 'u' :: a :: b :: c :: d :: p.1, p.2)) := by
  rw [scanString, h]

theorem scanString_esc (s rest : Str) : scanString (escStr s ++ '"' :: rest) = some (escStr s, rest) := by
  induction s with
  | nil => simp [escStr, scanString]
  | cons c s ih =>
    rw [escStr]
    rcases escChar_cases c with ⟨e, h1, h2, h3⟩ | ⟨e, he, h1, h2⟩ | ⟨w, x, y, z, he, h1, _⟩
    · rw [e]; show scanString (c :: (escStr s ++ _)) = _
      rw [scanString_plain h1 h2 h3, ih]; rfl
    · rw [he]; show scanString ('\\' :: e :: (escStr s ++ _)) = _
      rw [scanString_simple h1 h2, ih]; rfl
    · rw [he]; show scanString ('\\' :: 'u' :: w :: x :: y :: z :: (escStr s ++ _)) = _
      rw [scanString_u h1, ih]; rfl

theorem unquote_esc (s : Str) : unquote none (escStr s) = s := by
  induction s with
  | nil => simp [escStr, unquote]
  | cons c s ih =>
    rw [escStr]
    rcases escChar_cases c with ⟨e, h1, h2, h3⟩ | ⟨e, he, h1, h2⟩ | ⟨w, x, y, z, he, h1, hl⟩
    · rw [e]; show unquote none (c :: escStr s) = _
      rw [unquote, ih]
      · rfl
      · intro _ _ _ _ _ h; exact absurd h h2
      · intro _ _ h; exact absurd h h2
    · rw [he]; show unquote none ('\\' :: e :: escStr s) = _
      rw [unquote, ih, h2]
      · rfl
      · intro _ _ _ _ _ h; exact absurd h h1
    · rw [he]; show unquote none ('\\' :: 'u' :: w :: x :: y :: z :: escStr s) = _
      rw [unquote, ih, h1]
      simp only [Option.getD_some]
      rw [if_neg (by omega), if_neg (by omega), Char.ofNat_toNat]

/-! ### Numbers -/

theorem spanDigits_all {ds : Str} (h : ds.all isDig = true) {rest : Str} (hr : ∀ c r, rest = c :: r → isDig c = false) :
    spanDigits (ds ++ rest) = (ds, rest) := by
  induction ds with
  | nil =>
    cases rest with
    | nil => rfl
    | cons c r => simp [spanDigits, hr c r rfl]
  | cons c ds ih =>
    simp only [List.all_cons, Bool.and_eq_true] at h
    show spanDigits (c :: (ds ++ rest)) = _
    rw [spanDigits, if_pos h.1, ih h.2]

/-- What may follow a value in a written document. -/
def ValueEnd (rest : Str) : Prop := ∀ c r, rest = c :: r → c = ',' ∨ c = ']' ∨ c = '}'

theorem ValueEnd.nil : ValueEnd [] := by intro c r h; cases h
theorem ValueEnd.cons {c : Char} {r : Str} (h : c = ',' ∨ c = ']' ∨ c = '}') : ValueEnd (c :: r) := by
  intro d r' e; cases e; exact h

theorem ValueEnd.notDig {rest : Str} (h : ValueEnd rest) : ∀ c r, rest = c :: r → isDig c = false := by
  intro c r e
  rcases h c r e with h | h | h <;> (subst h; rfl)

theorem natDigits_head (n : Nat) : (n = 0 ∧ natDigits n = ['0']) ∨ ∃ c s, natDigits n = c :: s ∧ c ≠ '0' ∧ isDig c = true := by
  induction n using Nat.strongRecOn with
  | ind n ih =>
    by_cases h : n < 10
    · have tb : ∀ k < 10, (k = 0 ∧ natDigits k = ['0']) ∨ (∃ c, natDigits k = [c] ∧ c ≠ '0' ∧ isDig c = true) := by
        intro k hk
        rw [natDigits_lt hk]
        have : ∀ k < 10, (k = 0 ∧ dig k = '0') ∨ (dig k ≠ '0' ∧ isDig (dig k) = true) := by decide
        rcases this k hk with ⟨h1, h2⟩ | h
        · exact .inl ⟨h1, by rw [h2]⟩
        · exact .inr ⟨_, rfl, h⟩
      rcases tb n h with h | ⟨c, h1, h2⟩
      · exact .inl h
      · exact .inr ⟨c, [], h1, h2⟩
    · rw [natDigits_ge (by omega)]
      rcases ih (n / 10) (by omega) with ⟨h0, _⟩ | ⟨c, s, h1, h2⟩
      · omega
      · exact .inr ⟨c, s ++ [dig (n % 10)], by rw [h1]; rfl, h2⟩

theorem scanInt_natDigits (n : Nat) {rest : Str} (hr : ValueEnd rest) :
    scanInt (natDigits n ++ rest) = some (natDigits n, rest) := by
  have ha := natDigits_all n
  rcases natDigits_head n with ⟨_, e⟩ | ⟨c, s, e, h1, h2⟩
  · rw [e]; rfl
  · rw [e] at ha ⊢
    show scanInt (c :: (s ++ rest)) = _
    rw [scanInt, if_neg h1, if_pos h2]
    show some (spanDigits ((c :: s) ++ rest)) = _
    rw [spanDigits_all ha hr.notDig]

theorem scanFrac_end {rest : Str} (hr : ValueEnd rest) : scanFrac rest = some ([], rest) := by
  cases rest with
  | nil => rfl
  | cons c r =>
    rw [scanFrac, if_neg]
    intro h; subst h
    rcases hr _ _ rfl with h | h | h <;> exact absurd h (by decide)

theorem scanExp_end {rest : Str} (hr : ValueEnd rest) : scanExp rest = some ([], rest) := by
  cases rest with
  | nil => rfl
  | cons c r =>
    have : ¬ (c = 'e' ∨ c = 'E') := by
      rintro (h | h) <;> subst h <;> rcases hr _ _ rfl with h | h | h <;> exact absurd h (by decide)
    simp only [scanExp, if_neg this]

theorem scanUnsigned_natDigits (n : Nat) {rest : Str} (hr : ValueEnd rest) :
    scanUnsigned (natDigits n ++ rest) = some (natDigits n, rest) := by
  simp [scanUnsigned, scanInt_natDigits n hr, scanFrac_end hr, scanExp_end hr]

theorem scanNumber_itoa (n : Int) {rest : Str} (hr : ValueEnd rest) :
    scanNumber (itoa n ++ rest) = some (itoa n, rest) := by
  unfold itoa
  split
  · show scanNumber ('-' :: (natDigits n.natAbs ++ rest)) = _
    rw [scanNumber, if_pos rfl, scanUnsigned_natDigits _ hr]; rfl
  · have hs := scanUnsigned_natDigits n.natAbs hr
    have hx : ∃ c s, natDigits n.natAbs = c :: s ∧ isDig c = true := by
      rcases natDigits_head n.natAbs with ⟨_, e⟩ | ⟨c, s, e, _, h⟩
      · exact ⟨_, _, e, rfl⟩
      · exact ⟨c, s, e, h⟩
    obtain ⟨c, s, e, h⟩ := hx
    rw [e] at hs ⊢
    show scanNumber (c :: (s ++ rest)) = _
    rw [scanNumber, if_neg (by intro hc; subst hc; exact absurd h (by decide))]
    exact hs

/-! ### Documents -/

/-- A literal that the scanner reads back and that cannot be taken for anything else. -/
def NumLit (l : Str) : Prop := ∃ n : Int, l = itoa n

mutual
/-- A document whose strings and numbers are written as the encoder writes them. -/
def JV.Wf : JV → Prop
  | .null => True
  | .bool _ => True
  | .num l => NumLit l
  | .str raw val => raw = escStr val
  | .arr vs => JV.WfElems vs
  | .obj ms => JV.WfMembers ms
def JV.WfElems : List JV → Prop
  | [] => True
  | v :: vs => v.Wf ∧ JV.WfElems vs
def JV.WfMembers : List ((Str × Str) × JV) → Prop
  | [] => True
  | (k, v) :: ms => k.1 = escStr k.2 ∧ v.Wf ∧ JV.WfMembers ms
end

mutual
/-- Steps needed to read a document back. -/
def JV.need : JV → Nat
  | .arr vs => JV.needElems vs + 1
  | .obj ms => JV.needMembers ms + 1
  | _ => 1
def JV.needElems : List JV → Nat
  | [] => 0
  | v :: vs => v.need + JV.needElems vs + 1
def JV.needMembers : List ((Str × Str) × JV) → Nat
  | [] => 0
  | (_, v) :: ms => v.need + JV.needMembers ms + 1
end

theorem itoa_head (n : Int) : ∃ c s, itoa n = c :: s ∧ (c = '-' ∨ isDig c = true) := by
  unfold itoa
  split
  · exact ⟨_, _, rfl, .inl rfl⟩
  · rcases natDigits_head n.natAbs with ⟨_, e⟩ | ⟨c, s, e, _, h⟩
    · exact ⟨_, _, e, .inr rfl⟩
    · exact ⟨c, s, e, .inr h⟩

mutual
theorem need_le : (v : JV) → v.Wf → v.need ≤ v.text.length
  | .null, _ => by decide
  | .bool true, _ => by decide
  | .bool false, _ => by decide
  | .num l, h => by
    obtain ⟨n, e⟩ : NumLit l := by simpa [JV.Wf] using h
    obtain ⟨c, s, e', _⟩ := itoa_head n
    simp [JV.need, JV.text, e, e']
  | .str raw val, _ => by simp [JV.need, JV.text]
  | .arr vs, h => by
    have := needElems_le vs (by simpa [JV.Wf] using h)
    simp [JV.need, JV.text]; omega
  | .obj ms, h => by
    have := needMembers_le ms (by simpa [JV.Wf] using h)
    simp [JV.need, JV.text]; omega
theorem needElems_le : (vs : List JV) → JV.WfElems vs → JV.needElems vs ≤ (JV.textElems vs).length + 1
  | [], _ => by simp [JV.needElems]
  | [v], h => by
    have h : v.Wf := (by simpa [JV.WfElems] using h)
    have := need_le v h
    simp [JV.needElems, JV.textElems]; omega
  | v :: w :: vs, h => by
    rw [JV.WfElems] at h
    have := need_le v h.1
    have := needElems_le (w :: vs) h.2
    rw [JV.needElems, JV.textElems]
    simp; omega
theorem needMembers_le : (ms : List ((Str × Str) × JV)) → JV.WfMembers ms → JV.needMembers ms ≤ (JV.textMembers ms).length + 1
  | [], _ => by simp [JV.needMembers]
  | [(k, v)], h => by
    have h : v.Wf := (by rw [JV.WfMembers] at h; exact h.2.1)
    have := need_le v h
    simp [JV.needMembers, JV.textMembers]; omega
  | (k, v) :: m :: ms, h => by
    rw [JV.WfMembers] at h
    have := need_le v h.2.1
    have := needMembers_le (m :: ms) h.2.2
    rw [JV.needMembers, JV.textMembers]
    simp; omega
end

/-- The first character of a written value. -/
theorem text_head (v : JV) (h : v.Wf) : ∃ c s, v.text = c :: s ∧ isJsonSpace c = false ∧ c ≠ ']' ∧ c ≠ '}' := by
  have hd : ∀ c, isDig c = true → isJsonSpace c = false ∧ c ≠ ']' ∧ c ≠ '}' := by
    intro c hc
    have h9 : 48 ≤ c.toNat ∧ c.toNat ≤ 57 := by simpa [isDig] using hc
    refine ⟨?_, ?_, ?_⟩
    · have : c ≠ ' ' := by intro e; subst e; exact absurd hc (by decide)
      simp [isJsonSpace, this]; omega
    · intro e; subst e; exact absurd hc (by decide)
    · intro e; subst e; exact absurd hc (by decide)
  cases v with
  | null => exact ⟨_, _, rfl, by decide⟩
  | bool b => cases b <;> exact ⟨_, _, rfl, by decide⟩
  | num l =>
    obtain ⟨n, e⟩ : NumLit l := by simpa [JV.Wf] using h
    obtain ⟨c, s, e', hc⟩ := itoa_head n
    refine ⟨c, s, by simp [JV.text, e, e'], ?_⟩
    rcases hc with hc | hc
    · subst hc; decide
    · exact hd c hc
  | str raw val => exact ⟨_, _, by rw [JV.text], by decide⟩
  | arr vs => exact ⟨_, _, by rw [JV.text], by decide⟩
  | obj ms => exact ⟨_, _, by rw [JV.text], by decide⟩

theorem skipSpace_head {c : Char} {s : Str} (h : isJsonSpace c = false) : skipSpace (c :: s) = c :: s := by
  simp [skipSpace, h]

theorem scanValue_num {n : Nat} {l rest : Str} (h : NumLit l) (hr : ValueEnd rest) :
    scanValue (n + 1) (l ++ rest) = some (.num l, rest) := by
  obtain ⟨i, rfl⟩ := h
  have hs := scanNumber_itoa i hr
  obtain ⟨c, s, e, hc⟩ := itoa_head i
  have hx : isJsonSpace c = false ∧ c ≠ '"' ∧ c ≠ '[' ∧ c ≠ '{' ∧ c ≠ 'n' ∧ c ≠ 't' ∧ c ≠ 'f' := by
    rcases hc with hc | hc
    · subst hc; decide
    · have h9 : 48 ≤ c.toNat ∧ c.toNat ≤ 57 := by simpa [isDig] using hc
      have : c ≠ ' ' := by intro e; subst e; exact absurd hc (by decide)
      refine ⟨by simp [isJsonSpace, this]; omega, ?_, ?_, ?_, ?_, ?_, ?_⟩ <;>
        (intro e; subst e; exact absurd hc (by decide))
  obtain ⟨h0, h1, h2, h3, h4, h5, h6⟩ := hx
  rw [e] at hs ⊢
  have hs : scanNumber (c :: (s ++ rest)) = _ := hs
  show scanValue (n + 1) (c :: (s ++ rest)) = _
  rw [scanValue, skipSpace_head h0]
  split <;> rename_i heq
  all_goals first
    | (cases heq; contradiction)
    | (cases heq; done)
    | (rw [hs]; rfl)

mutual
theorem scanValue_text : (v : JV) → v.Wf → (n : Nat) → v.need ≤ n → (rest : Str) → ValueEnd rest →
    scanValue n (v.text ++ rest) = some (v, rest)
  | v, _, 0, hn, rest, hr => by
    exfalso; cases v <;> simp [JV.need] at hn
  | .null, _, n + 1, _, rest, _ => by rfl
  | .bool true, _, n + 1, _, rest, _ => by rfl
  | .bool false, _, n + 1, _, rest, _ => by rfl
  | .num l, h, n + 1, _, rest, hr => by
    rw [JV.text]; exact scanValue_num (by simpa [JV.Wf] using h) hr
  | .str raw val, h, n + 1, _, rest, _ => by
    have h : raw = escStr val := by simpa [JV.Wf] using h
    subst h
    rw [JV.text]
    show scanValue (n + 1) ('"' :: ((escStr val ++ ['"']) ++ rest)) = _
    rw [List.append_assoc]
    show scanValue (n + 1) ('"' :: (escStr val ++ '"' :: rest)) = _
    rw [scanValue, skipSpace_head (by decide)]
    show (scanString _).map _ = _
    rw [scanString_esc]
    simp [unquote_esc]
  | .arr [], _, n + 1, _, rest, _ => by rfl
  | .arr (v :: vs), h, n + 1, hn, rest, hr => by
    have h : JV.WfElems (v :: vs) := by simpa [JV.Wf] using h
    have ih := scanElems_text (v :: vs) h (by simp) n (by rw [JV.need] at hn; omega) rest
    have hh : ∃ c s, JV.textElems (v :: vs) = c :: s ∧ isJsonSpace c = false ∧ c ≠ ']' ∧ c ≠ '}' := by
      rw [JV.WfElems] at h
      obtain ⟨c, s, e, hc⟩ := text_head v h.1
      cases vs with
      | nil => exact ⟨c, s, by rw [JV.textElems, e], hc⟩
      | cons w vs => exact ⟨c, _, by rw [JV.textElems, e]; rfl, hc⟩
    obtain ⟨c, s, e, h0, h1, _⟩ := hh
    rw [JV.text]
    show scanValue (n + 1) ('[' :: ((JV.textElems (v :: vs) ++ [']']) ++ rest)) = _
    rw [List.append_assoc]
    show scanValue (n + 1) ('[' :: (JV.textElems (v :: vs) ++ ']' :: rest)) = _
    rw [scanValue, skipSpace_head (by decide)]
    rw [e] at ih ⊢
    show (match skipSpace (c :: (s ++ ']' :: rest)) with
      | ']' :: t => some (JV.arr [], t)
      | _ => (scanElems n (c :: (s ++ ']' :: rest))).map (fun (p : List JV × Str) => (JV.arr p.1, p.2))) = _
    rw [skipSpace_head h0]
    split
    · rename_i heq; cases heq; contradiction
    · have ih : scanElems n (c :: (s ++ ']' :: rest)) = _ := ih
      rw [ih]; rfl
  | .obj [], _, n + 1, _, rest, _ => by rfl
  | .obj (m :: ms), h, n + 1, hn, rest, hr => by
    have h : JV.WfMembers (m :: ms) := by simpa [JV.Wf] using h
    have ih := scanMembers_text (m :: ms) h (by simp) n (by rw [JV.need] at hn; omega) rest
    have hh : ∃ s, JV.textMembers (m :: ms) = '"' :: s := by
      obtain ⟨k, v⟩ := m
      cases ms with
      | nil => exact ⟨_, by rw [JV.textMembers]⟩
      | cons w vs => exact ⟨_, by rw [JV.textMembers]⟩
    obtain ⟨s, e⟩ := hh
    rw [JV.text]
    show scanValue (n + 1) ('{' :: ((JV.textMembers (m :: ms) ++ ['}']) ++ rest)) = _
    rw [List.append_assoc]
    show scanValue (n + 1) ('{' :: (JV.textMembers (m :: ms) ++ '}' :: rest)) = _
    rw [scanValue, skipSpace_head (by decide)]
    rw [e] at ih ⊢
    show (match skipSpace ('"' :: (s ++ '}' :: rest)) with
      | '}' :: t => some (JV.obj [], t)
      | _ => (scanMembers n ('"' :: (s ++ '}' :: rest))).map (fun (p : List ((Str × Str) × JV) × Str) => (JV.obj p.1, p.2))) = _
    rw [skipSpace_head (by decide)]
    have ih : scanMembers n ('"' :: (s ++ '}' :: rest)) = _ := ih
    show (scanMembers n ('"' :: (s ++ '}' :: rest))).map (fun (p : List ((Str × Str) × JV) × Str) => (JV.obj p.1, p.2)) = _
    rw [ih]; rfl
theorem scanElems_text : (vs : List JV) → JV.WfElems vs → vs ≠ [] → (n : Nat) → JV.needElems vs ≤ n → (rest : Str) →
    scanElems n (JV.textElems vs ++ ']' :: rest) = some (vs, rest)
  | [], _, h0, _, _, _ => absurd rfl h0
  | v :: vs, _, _, 0, hn, _ => by
    exfalso; rw [JV.needElems] at hn; omega
  | [v], h, _, n + 1, hn, rest => by
    have hv : v.Wf := by rw [JV.WfElems] at h; exact h.1
    have ih := scanValue_text v hv n (by rw [JV.needElems] at hn; omega) (']' :: rest) (.cons (by decide))
    rw [JV.textElems, scanElems, ih]
    rfl
  | v :: w :: vs, h, _, n + 1, hn, rest => by
    rw [JV.WfElems] at h
    have ih := scanValue_text v h.1 n (by rw [JV.needElems] at hn; omega) (',' :: (JV.textElems (w :: vs) ++ ']' :: rest)) (.cons (by decide))
    have ih2 := scanElems_text (w :: vs) h.2 (by simp) n (by rw [JV.needElems] at hn; omega) rest
    rw [JV.textElems, List.append_assoc, scanElems]
    show (match scanValue n (v.text ++ ',' :: (JV.textElems (w :: vs) ++ ']' :: rest)) with
      | none => none
      | some (v, r) => _) = _
    rw [ih]
    show (scanElems n (JV.textElems (w :: vs) ++ ']' :: rest)).map _ = _
    rw [ih2]; rfl
theorem scanMembers_text : (ms : List ((Str × Str) × JV)) → JV.WfMembers ms → ms ≠ [] → (n : Nat) →
    JV.needMembers ms ≤ n → (rest : Str) →
    scanMembers n (JV.textMembers ms ++ '}' :: rest) = some (ms, rest)
  | [], _, h0, _, _, _ => absurd rfl h0
  | (k, v) :: ms, _, _, 0, hn, _ => by
    exfalso; rw [JV.needMembers] at hn; omega
  | [((k, k'), v)], h, _, n + 1, hn, rest => by
    rw [JV.WfMembers] at h
    obtain ⟨hk, hv, _⟩ := h
    have hk : k = escStr k' := hk
    subst hk
    have ih := scanValue_text v hv n (by rw [JV.needMembers] at hn; omega) ('}' :: rest) (.cons (by decide))
    rw [JV.textMembers]
    show scanMembers (n + 1) ('"' :: ((escStr k' ++ '"' :: ':' :: v.text) ++ '}' :: rest)) = _
    rw [List.append_assoc]
    show scanMembers (n + 1) ('"' :: (escStr k' ++ '"' :: (':' :: (v.text ++ '}' :: rest)))) = _
    rw [scanMembers, skipSpace_head (by decide)]
    simp only [scanString_esc]
    rw [skipSpace_head (by decide)]
    simp only [ih, unquote_esc]
    rw [skipSpace_head (by decide)]
    rfl
  | ((k, k'), v) :: m :: ms, h, _, n + 1, hn, rest => by
    rw [JV.WfMembers] at h
    obtain ⟨hk, hv, hm⟩ := h
    have hk : k = escStr k' := hk
    subst hk
    have ih := scanValue_text v hv n (by rw [JV.needMembers] at hn; omega) (',' :: (JV.textMembers (m :: ms) ++ '}' :: rest)) (.cons (by decide))
    have ih2 := scanMembers_text (m :: ms) hm (by simp) n (by rw [JV.needMembers] at hn; omega) rest
    rw [JV.textMembers]
    show scanMembers (n + 1) ('"' :: ((escStr k' ++ '"' :: ':' :: (v.text ++ ',' :: JV.textMembers (m :: ms))) ++ '}' :: rest)) = _
    rw [List.append_assoc]
    show scanMembers (n + 1) ('"' :: (escStr k' ++ '"' :: (':' :: ((v.text ++ ',' :: JV.textMembers (m :: ms)) ++ '}' :: rest)))) = _
    rw [List.append_assoc]
    show scanMembers (n + 1) ('"' :: (escStr k' ++ '"' :: (':' :: (v.text ++ ',' :: (JV.textMembers (m :: ms) ++ '}' :: rest))))) = _
    rw [scanMembers, skipSpace_head (by decide)]
    simp only [scanString_esc]
    rw [skipSpace_head (by decide)]
    simp only [ih, unquote_esc]
    rw [skipSpace_head (by decide)]
    simp only [ih2]
    rfl
end

theorem readJson_text {v : JV} (h : v.Wf) (hd : v.depth ≤ 10000) : readJson v.text = some v := by
  have := scanValue_text v h (v.text.length + 1) (by have := need_le v h; omega) [] .nil
  rw [List.append_nil] at this
  rw [readJson, this]
  show (if _ then _ else _) = _
  rw [if_pos ⟨rfl, hd⟩]

theorem depth_append (xs ys : List ((Str × Str) × JV)) :
    JV.depthMembers (xs ++ ys) = max (JV.depthMembers xs) (JV.depthMembers ys) := by
  induction xs with
  | nil => simp [JV.depthMembers]
  | cons x xs ih =>
    obtain ⟨k, v⟩ := x
    show JV.depthMembers ((k, v) :: (xs ++ ys)) = _
    simp only [JV.depthMembers, ih]; omega

theorem depth_field (n : Str) (v : JV) : JV.depthMembers (field n v) = v.depth := by
  simp [field, JV.depthMembers]

theorem depth_omit (n : Str) (e : Bool) (v : JV) : JV.depthMembers (fieldOmit n e v) ≤ v.depth := by
  cases e <;> simp [fieldOmit, field, JV.depthMembers]

theorem depth_ptr {α : Type} {w : α → JV} {n : Nat} (h : ∀ a, (w a).depth ≤ n) (o : Option α) : (ofPtr w o).depth ≤ n := by
  cases o with
  | none => simp [ofPtr, JV.depth]
  | some a => exact h a

theorem depth_ymd (y : YMD) : y.toJson.depth ≤ 1 := by
  simp [YMD.toJson, JV.depth, depth_append, depth_field, JV.ofInt]

theorem depth_date (d : Date) : d.toJson.depth ≤ 2 := by
  have h1 := depth_ptr depth_ymd d.ymd
  have h2 := depth_ptr (w := fun t => JV.num (marshalTimestamp t)) (n := 0) (fun _ => by simp [JV.depth]) d.timestamp
  have e : ∀ n b v, JV.depth v = 0 → JV.depthMembers (fieldOmit n b v) = 0 := by
    intro n b v hv; have := depth_omit n b v; omega
  rw [Date.toJson, JV.depth]
  simp only [depth_append, depth_field]
  rw [e _ _ (.ofStr d.dateTime) (by simp [JV.ofStr, JV.depth]), e _ _ _ (Nat.le_zero.1 h2)]
  simp only [e _ _ (.ofInt _) (by simp [JV.ofInt, JV.depth]), e _ _ (.bool _) (by simp [JV.depth])]
  omega

theorem depth_range (r : DateRange) : r.toJson.depth ≤ 3 := by
  have h1 := depth_ptr depth_date r.lower
  have h2 := depth_ptr depth_date r.upper
  rw [DateRange.toJson, JV.depth]
  simp only [depth_append, depth_field, JV.ofStr, JV.depth]
  omega

theorem depth_edtf (d : EDTFDate) : d.toJson.depth ≤ 4 := by
  have h1 := depth_ptr depth_range d.start
  have h2 := depth_ptr depth_range d.stop
  rw [EDTFDate.toJson, JV.depth]
  simp only [depth_append, depth_field, JV.ofStr, JV.ofInt, JV.depth]
  omega

end EDTF
