/- Documents scanned from bytes and from characters, and what is decoded from them. -/
import Verif.LemmasJsonBytes
import Verif.PropsDecode
namespace EDTF
open Spec

mutual
/-- The document that is scanned from the text the bytes are read as. -/
def JV.asText : JV → JV
  | .null => .null
  | .bool b => .bool b
  | .num l => .num l
  | .str raw _ => .str (runes (unbyte raw)) (unquote none (runes (unbyte raw)))
  | .arr vs => .arr (JV.asTextElems vs)
  | .obj ms => .obj (JV.asTextMembers ms)
def JV.asTextElems : List JV → List JV
  | [] => []
  | v :: vs => v.asText :: JV.asTextElems vs
def JV.asTextMembers : List ((Str × Str) × JV) → List ((Str × Str) × JV)
  | [] => []
  | ((k, _), v) :: ms => ((runes (unbyte k), unquote none (runes (unbyte k))), v.asText) :: JV.asTextMembers ms
end

/-- One value, by its first character. -/
def valueAt (n : Nat) : Str → Option (JV × Str)
  | [] => none
  | c :: r =>
    if c = '"' then (scanString r).map (fun p => (.str p.1 (unquote none p.1), p.2))
    else if c = '[' then (if (skipSpace r).head? = some ']' then some (.arr [], (skipSpace r).tail) else (scanElems n r).map (fun p => (.arr p.1, p.2)))
    else if c = '{' then (if (skipSpace r).head? = some '}' then some (.obj [], (skipSpace r).tail) else (scanMembers n r).map (fun p => (.obj p.1, p.2)))
    else if c = 'n' then (expect (c! "ull") r).map (fun t => (.null, t))
    else if c = 't' then (expect (c! "rue") r).map (fun t => (.bool true, t))
    else if c = 'f' then (expect (c! "alse") r).map (fun t => (.bool false, t))
    else (scanNumber (c :: r)).map (fun p => (.num p.1, p.2))

theorem value_at (n : Nat) (s : Str) : scanValue (n + 1) s = valueAt n (skipSpace s) := by
  rw [scanValue]
  generalize skipSpace s = l
  match l with
  | [] => rfl
  | c :: r =>
    unfold valueAt
    simp only
    by_cases h1 : c = '"'
    · subst h1; rfl
    rw [if_neg h1]
    by_cases h2 : c = '['
    · subst h2
      rw [if_pos rfl]
      simp only
      cases skipSpace r with
      | nil => rfl
      | cons d t =>
        by_cases hd : d = ']'
        · subst hd; rfl
        · rw [if_neg (by simpa using hd)]
          split
          · rename_i e; injection e with e _; exact absurd e hd
          · rfl
    rw [if_neg h2]
    by_cases h3 : c = '{'
    · subst h3
      rw [if_pos rfl]
      simp only
      cases skipSpace r with
      | nil => rfl
      | cons d t =>
        by_cases hd : d = '}'
        · subst hd; rfl
        · rw [if_neg (by simpa using hd)]
          split
          · rename_i e; injection e with e _; exact absurd e hd
          · rfl
    rw [if_neg h3]
    by_cases h4 : c = 'n'
    · subst h4; rfl
    rw [if_neg h4]
    by_cases h5 : c = 't'
    · subst h5; rfl
    rw [if_neg h5]
    by_cases h6 : c = 'f'
    · subst h6; rfl
    rw [if_neg h6]
    split
    · rename_i e; cases e
    · rename_i e; injection e with e _; exact absurd e h1
    · rename_i e; injection e with e _; exact absurd e h2
    · rename_i e; injection e with e _; exact absurd e h3
    · rename_i e; injection e with e _; exact absurd e h4
    · rename_i e; injection e with e _; exact absurd e h5
    · rename_i e; injection e with e _; exact absurd e h6
    · rfl

/-- What comes after a value in an array. -/
def elemsAt (n : Nat) (v : JV) : Str → Option (List JV × Str)
  | [] => none
  | c :: t => if c = ',' then (scanElems n t).map (fun p => (v :: p.1, p.2)) else if c = ']' then some ([v], t) else none

theorem elems_at (n : Nat) (s : Str) : scanElems (n + 1) s = (scanValue n s).bind fun p => elemsAt n p.1 (skipSpace p.2) := by
  rw [scanElems]
  cases scanValue n s with
  | none => rfl
  | some p =>
    obtain ⟨v, r⟩ := p
    show _ = elemsAt n v (skipSpace r)
    simp only
    generalize skipSpace r = l
    match l with
    | [] => rfl
    | c :: t =>
      unfold elemsAt
      simp only
      by_cases h1 : c = ','
      · subst h1; rfl
      rw [if_neg h1]
      by_cases h2 : c = ']'
      · subst h2; rfl
      rw [if_neg h2]
      split
      · rename_i e; injection e with e _; exact absurd e h1
      · rename_i e; injection e with e _; exact absurd e h2
      · rfl

/-- What comes after a value in an object. -/
def membersAt (n : Nat) (k : Str) (v : JV) : Str → Option (List ((Str × Str) × JV) × Str)
  | [] => none
  | c :: t => if c = ',' then (scanMembers n t).map (fun p => (((k, unquote none k), v) :: p.1, p.2)) else if c = '}' then some ([((k, unquote none k), v)], t) else none

/-- A fixed character, and what follows. -/
def afterChar (d : Char) : Str → Option Str
  | [] => none
  | c :: s => if c = d then some s else none

theorem members_at (n : Nat) (s : Str) : scanMembers (n + 1) s = (afterChar '"' (skipSpace s)).bind fun r => (scanString r).bind fun p =>
    (afterChar ':' (skipSpace p.2)).bind fun r => (scanValue n r).bind fun q => membersAt n p.1 q.1 (skipSpace q.2) := by
  rw [scanMembers]
  generalize skipSpace s = l
  match l with
  | [] => rfl
  | c :: r =>
    by_cases h : c = '"'
    · subst h
      show _ = (scanString r).bind _
      simp only
      cases scanString r with
      | none => rfl
      | some p =>
        obtain ⟨k, r⟩ := p
        show _ = (afterChar ':' (skipSpace r)).bind _
        simp only
        generalize skipSpace r = l
        match l with
        | [] => rfl
        | c :: r =>
          by_cases h : c = ':'
          · subst h
            show _ = (scanValue n r).bind _
            simp only
            cases scanValue n r with
            | none => rfl
            | some q =>
              obtain ⟨v, r⟩ := q
              show _ = membersAt n k v (skipSpace r)
              simp only
              generalize skipSpace r = l
              match l with
              | [] => rfl
              | c :: t =>
                unfold membersAt
                simp only
                by_cases h1 : c = ','
                · subst h1; rfl
                rw [if_neg h1]
                by_cases h2 : c = '}'
                · subst h2; rfl
                rw [if_neg h2]
                split
                · rename_i e; injection e with e _; exact absurd e h1
                · rename_i e; injection e with e _; exact absurd e h2
                · rfl
          · have : afterChar ':' (c :: r) = none := by unfold afterChar; simp only; rw [if_neg h]
            rw [this]
            split
            · rename_i e; injection e with e _; exact absurd e h
            · rfl
    · have : afterChar '"' (c :: r) = none := by unfold afterChar; simp only; rw [if_neg h]
      rw [this]
      split
      · rename_i e; injection e with e _; exact absurd e h
      · rfl

theorem char_pair {d : Char} (hd : d.toNat < 0x80) {s t : Str} (h : Pair s t) : OptPair (afterChar d s) (afterChar d t) := by
  rcases pair_cases h with ⟨rfl, rfl⟩ | ⟨c, s', t', rfl, rfl, hc, hp⟩ | ⟨c, c', s', t', rfl, rfl, hc, hc'⟩
  · exact .none
  · unfold afterChar
    simp only
    by_cases k : c = d
    · rw [if_pos k, if_pos k]; exact .some hp
    · rw [if_neg k, if_neg k]; exact .none
  · unfold afterChar
    simp only
    rw [if_neg (high_ne hc hd), if_neg (high_ne hc' hd)]
    exact .none

theorem same_bind {α β γ δ : Type} {Q : α → β → Prop} {R : γ → δ → Prop} {x : Option (α × Str)} {y : Option (β × Str)}
    {f : α × Str → Option (γ × Str)} {g : β × Str → Option (δ × Str)} (h : Same Q x y)
    (hf : ∀ a b s t, Q a b → Pair s t → Same R (f (a, s)) (g (b, t))) : Same R (x.bind f) (y.bind g) := by
  cases h with
  | none => exact .none
  | some q h => exact hf _ _ _ _ q h

theorem opt_bind {γ δ : Type} {R : γ → δ → Prop} {x y : Option Str} {f : Str → Option (γ × Str)} {g : Str → Option (δ × Str)} (h : OptPair x y)
    (hf : ∀ s t, Pair s t → Same R (f s) (g t)) : Same R (x.bind f) (y.bind g) := by
  cases h with
  | none => exact .none
  | some h => exact hf _ _ h

theorem opt_map {γ δ : Type} {R : γ → δ → Prop} {x y : Option Str} {a : γ} {b : δ} (h : OptPair x y) (r : R a b) :
    Same R (x.map fun t => (a, t)) (y.map fun t => (b, t)) := by
  cases h with
  | none => exact .none
  | some h => exact .some r h

theorem head_pair {d : Char} (hd : d.toNat < 0x80) {s t : Str} (h : Pair s t) :
    (s.head? = some d ↔ t.head? = some d) ∧ (s.head? = some d → Pair s.tail t.tail) := by
  rcases pair_cases h with ⟨rfl, rfl⟩ | ⟨c, s', t', rfl, rfl, hc, hp⟩ | ⟨c, c', s', t', rfl, rfl, hc, hc'⟩
  · exact ⟨Iff.rfl, nofun⟩
  · exact ⟨Iff.rfl, fun _ => hp⟩
  · have h1 := high_ne hc hd
    have h2 := high_ne hc' hd
    simp [h1, h2]

theorem scan_pair (n : Nat) : (∀ s t, Pair s t → Same (fun v v' => v' = v.asText) (scanValue n s) (scanValue n t)) ∧
    (∀ s t, Pair s t → Same (fun v v' => v' = JV.asTextElems v) (scanElems n s) (scanElems n t)) ∧
    (∀ s t, Pair s t → Same (fun v v' => v' = JV.asTextMembers v) (scanMembers n s) (scanMembers n t)) := by
  induction n with
  | zero =>
    refine ⟨?_, ?_, ?_⟩ <;> intro s t h
    · rw [scanValue, scanValue]; exact .none
    · rw [scanElems, scanElems]; exact .none
    · rw [scanMembers, scanMembers]; exact .none
  | succ n ih =>
    obtain ⟨ihv, ihe, ihm⟩ := ih
    refine ⟨?_, ?_, ?_⟩ <;> intro s t h
    · rw [value_at, value_at]
      have h := skip_pair h
      generalize skipSpace s = s at h
      generalize skipSpace t = t at h
      have num : Same (fun v v' => v' = JV.asText v) ((scanNumber s).map fun p => (JV.num p.1, p.2)) ((scanNumber t).map fun p => (JV.num p.1, p.2)) :=
        same_map (f := JV.num) (g := JV.num) (by rintro a _ rfl; rw [JV.asText]) (number_pair h)
      rcases pair_cases h with ⟨rfl, rfl⟩ | ⟨c, s', t', rfl, rfl, hc, hp⟩ | ⟨c, c', s', t', rfl, rfl, hc, hc'⟩
      · exact .none
      · unfold valueAt
        simp only
        by_cases h1 : c = '"'
        · rw [if_pos h1, if_pos h1]
          exact same_map (f := fun p => JV.str p (unquote none p)) (g := fun p => JV.str p (unquote none p)) (by rintro a _ rfl; rw [JV.asText]) (string_pair hp)
        rw [if_neg h1, if_neg h1]
        by_cases h2 : c = '['
        · rw [if_pos h2, if_pos h2]
          have k := head_pair (d := ']') (by decide) (skip_pair hp)
          by_cases e : (skipSpace s').head? = some ']'
          · rw [if_pos e, if_pos (k.1.1 e)]; exact .some (by rw [JV.asText, JV.asTextElems]) (k.2 e)
          · rw [if_neg e, if_neg (fun e' => e (k.1.2 e'))]
            exact same_map (f := JV.arr) (g := JV.arr) (by rintro a _ rfl; rw [JV.asText]) (ihe _ _ hp)
        rw [if_neg h2, if_neg h2]
        by_cases h3 : c = '{'
        · rw [if_pos h3, if_pos h3]
          have k := head_pair (d := '}') (by decide) (skip_pair hp)
          by_cases e : (skipSpace s').head? = some '}'
          · rw [if_pos e, if_pos (k.1.1 e)]; exact .some (by rw [JV.asText, JV.asTextMembers]) (k.2 e)
          · rw [if_neg e, if_neg (fun e' => e (k.1.2 e'))]
            exact same_map (f := JV.obj) (g := JV.obj) (by rintro a _ rfl; rw [JV.asText]) (ihm _ _ hp)
        rw [if_neg h3, if_neg h3]
        by_cases h4 : c = 'n'
        · rw [if_pos h4, if_pos h4]; exact opt_map (expect_pair (by decide) hp) (by rw [JV.asText])
        rw [if_neg h4, if_neg h4]
        by_cases h5 : c = 't'
        · rw [if_pos h5, if_pos h5]; exact opt_map (expect_pair (by decide) hp) (by rw [JV.asText])
        rw [if_neg h5, if_neg h5]
        by_cases h6 : c = 'f'
        · rw [if_pos h6, if_pos h6]; exact opt_map (expect_pair (by decide) hp) (by rw [JV.asText])
        rw [if_neg h6, if_neg h6]
        exact num
      · have e : ∀ {x : Char} (r : Str), 0x80 ≤ x.toNat → valueAt n (x :: r) = (scanNumber (x :: r)).map fun p => (JV.num p.1, p.2) := by
          intro x r hx
          unfold valueAt
          simp only
          rw [if_neg (high_ne hx (by decide)), if_neg (high_ne hx (by decide)), if_neg (high_ne hx (by decide)), if_neg (high_ne hx (by decide)),
            if_neg (high_ne hx (by decide)), if_neg (high_ne hx (by decide))]
        rw [e _ hc, e _ hc']
        exact num
    · rw [elems_at, elems_at]
      refine same_bind (ihv _ _ h) ?_
      rintro v _ s t rfl h
      have h := skip_pair h
      show Same _ (elemsAt n v (skipSpace s)) (elemsAt n v.asText (skipSpace t))
      generalize skipSpace s = s at h
      generalize skipSpace t = t at h
      rcases pair_cases h with ⟨rfl, rfl⟩ | ⟨c, s', t', rfl, rfl, hc, hp⟩ | ⟨c, c', s', t', rfl, rfl, hc, hc'⟩
      · exact .none
      · unfold elemsAt
        simp only
        by_cases h1 : c = ','
        · rw [if_pos h1, if_pos h1]
          exact same_map (f := fun p => v :: p) (g := fun p => v.asText :: p) (by rintro a _ rfl; rw [JV.asTextElems]) (ihe _ _ hp)
        rw [if_neg h1, if_neg h1]
        by_cases h2 : c = ']'
        · rw [if_pos h2, if_pos h2]; exact .some (by rw [JV.asTextElems, JV.asTextElems]) hp
        rw [if_neg h2, if_neg h2]; exact .none
      · unfold elemsAt
        simp only
        rw [if_neg (high_ne hc (by decide)), if_neg (high_ne hc (by decide)), if_neg (high_ne hc' (by decide)), if_neg (high_ne hc' (by decide))]
        exact .none
    · rw [members_at, members_at]
      refine opt_bind (char_pair (by decide) (skip_pair h)) fun s t h => same_bind (string_pair h) ?_
      rintro k _ s t rfl h
      refine opt_bind (char_pair (by decide) (skip_pair h)) fun s t h => same_bind (ihv _ _ h) ?_
      rintro v _ s t rfl h
      have h := skip_pair h
      show Same _ (membersAt n k v (skipSpace s)) (membersAt n (runes (unbyte k)) v.asText (skipSpace t))
      generalize skipSpace s = s at h
      generalize skipSpace t = t at h
      rcases pair_cases h with ⟨rfl, rfl⟩ | ⟨c, s', t', rfl, rfl, hc, hp⟩ | ⟨c, c', s', t', rfl, rfl, hc, hc'⟩
      · exact .none
      · unfold membersAt
        simp only
        by_cases h1 : c = ','
        · rw [if_pos h1, if_pos h1]
          exact same_map (f := fun p => ((k, unquote none k), v) :: p) (g := fun p => ((runes (unbyte k), unquote none (runes (unbyte k))), v.asText) :: p)
            (by rintro a _ rfl; rw [JV.asTextMembers]) (ihm _ _ hp)
        rw [if_neg h1, if_neg h1]
        by_cases h2 : c = '}'
        · rw [if_pos h2, if_pos h2]; exact .some (by rw [JV.asTextMembers, JV.asTextMembers]) hp
        rw [if_neg h2, if_neg h2]; exact .none
      · unfold membersAt
        simp only
        rw [if_neg (high_ne hc (by decide)), if_neg (high_ne hc (by decide)), if_neg (high_ne hc' (by decide)), if_neg (high_ne hc' (by decide))]
        exact .none

mutual
theorem asText_depth : (v : JV) → v.asText.depth = v.depth
  | .null => by rw [JV.asText]
  | .bool _ => by rw [JV.asText]
  | .num _ => by rw [JV.asText]
  | .str _ _ => by rw [JV.asText, JV.depth, JV.depth] <;> nofun
  | .arr vs => by rw [JV.asText, JV.depth, JV.depth, asText_depthElems vs]
  | .obj ms => by rw [JV.asText, JV.depth, JV.depth, asText_depthMembers ms]
theorem asText_depthElems : (vs : List JV) → JV.depthElems (JV.asTextElems vs) = JV.depthElems vs
  | [] => by rw [JV.asTextElems]
  | v :: vs => by rw [JV.asTextElems, JV.depthElems, JV.depthElems, asText_depth v, asText_depthElems vs]
theorem asText_depthMembers : (ms : List ((Str × Str) × JV)) → JV.depthMembers (JV.asTextMembers ms) = JV.depthMembers ms
  | [] => by rw [JV.asTextMembers]
  | ((_, _), v) :: ms => by rw [JV.asTextMembers, JV.depthMembers, JV.depthMembers, asText_depth v, asText_depthMembers ms]
end

/-- More fuel than needed gives the same. -/
theorem readJson_fuel (s : Str) (n : Nat) (hn : s.length + 1 ≤ n) : readJson s =
    match scanValue n s with
    | some (v, r) => if (skipSpace r).isEmpty ∧ v.depth ≤ 10000 then some v else none
    | none => none := by
  have doc : ∀ v, JDocument v s → ∃ b, JBlank b ∧ scanValue n s = some (v, b) := by
    rintro v ⟨a, t, b, ha, ht, hb, rfl⟩
    refine ⟨b, hb, ?_⟩
    have := scanValue_jtext ht n (by simp at hn; omega) b (by
      have := ValEnd.blank hb .nil
      rwa [List.append_nil] at this)
    rw [List.append_assoc, scanValue_blank ha]
    exact this
  cases e : readJson s with
  | some v =>
    obtain ⟨h1, h2⟩ := (C71_reads s v).1 e
    obtain ⟨b, hb, k⟩ := doc v h1
    rw [k]
    simp only
    rw [if_pos ⟨by rw [skip_blanks hb]; rfl, (nested_iff _ _).1 h2⟩]
  | none =>
    cases k : scanValue n s with
    | none => rfl
    | some p =>
      obtain ⟨v, r⟩ := p
      simp only
      by_cases h : (skipSpace r).isEmpty = true ∧ v.depth ≤ 10000
      · exfalso
        obtain ⟨a, t, ha, ht, e'⟩ := (scan_sound _).1 _ _ _ k
        exact (C71_refuses s).1 e v ⟨a, t, r, ha, ht, skip_nil (by simpa using h.1), e'⟩ ((nested_iff _ _).2 h.2)
      · rw [if_neg h]

theorem runes_length : ∀ (n : Nat) (b : Bytes), b.length ≤ n → (runes b).length ≤ b.length := by
  intro n
  induction n with
  | zero =>
    intro b h
    have : b = [] := List.length_eq_zero_iff.1 (by omega)
    subst this
    exact Nat.le_refl _
  | succ n ih =>
    intro b h
    cases b with
    | nil => exact Nat.le_refl _
    | cons x rest =>
      rcases bytes_step x rest with ⟨_, e⟩ | ⟨_, c, u, w, hb, hu, _, e, _⟩
      · rw [e]
        have := ih rest (by simpa using h)
        simp; omega
      · rw [e]
        have h1 : 0 < u.length := List.length_pos_iff.2 hu
        have h2 := congrArg List.length hb
        simp only [List.length_append, List.length_cons] at h2 h ⊢
        have := ih w (by omega)
        omega

theorem readJson_runes (b : Bytes) : readJson (runes b) = (readJson (byteChars b)).map JV.asText := by
  have hl := runes_length _ b (Nat.le_refl _)
  have hb : (byteChars b).length = b.length := by unfold byteChars; simp
  rw [readJson_fuel (runes b) (b.length + 1) (by omega), readJson_fuel (byteChars b) (b.length + 1) (by omega)]
  have k := (scan_pair (b.length + 1)).1 _ _ (.mk b)
  generalize scanValue (b.length + 1) (byteChars b) = x at k
  generalize scanValue (b.length + 1) (runes b) = y at k
  cases k with
  | none => rfl
  | @some v v' s t q h =>
    subst q
    simp only [asText_depth]
    have h := skip_pair h
    have he : (skipSpace s).isEmpty = (skipSpace t).isEmpty := by
      rcases pair_cases h with ⟨e1, e2⟩ | ⟨c, s', t', e1, e2, _⟩ | ⟨c, c', s', t', e1, e2, _⟩ <;> rw [e1, e2] <;> rfl
    rw [he]
    by_cases hh : (skipSpace t).isEmpty = true ∧ v.depth ≤ 10000
    · rw [if_pos hh, if_pos hh]; rfl
    · rw [if_neg hh, if_neg hh]; rfl

end EDTF
