/-
Lemmas for the web page: the writer of JavaScript, line by line and read back.
-/
import Verif.Page
import Verif.SpecPage
import Verif.PropsDecode
import Verif.PropsJson
namespace EDTF
open Spec

/-! ### Quoting -/

theorem quote_table : ∀ n < 128, jsQuoteChar (Char.ofNat n) = inQuotes (Char.ofNat n) := by decide +kernel

theorem quoteChar_eq (c : Char) : jsQuoteChar c = inQuotes c := by
  by_cases h : c.toNat < 128
  · have := quote_table _ h
    rwa [Char.ofNat_toNat] at this
  · have ne : ∀ d : Char, d.toNat < 128 → c ≠ d := fun d hd e => h (e ▸ hd)
    have ne' : ∀ d : Char, d.toNat < 128 → d ≠ c := fun d hd e => h (e ▸ hd)
    have e1 : jsQuoteChar c = [c] := by
      unfold jsQuoteChar
      rw [if_neg (by omega), if_neg (by omega), if_neg (by omega), if_neg (by omega), if_neg (by omega),
        if_neg (ne '"' (by decide)), if_neg (ne '\\' (by decide)), if_neg (by omega)]
    have e2 : pageEscapes.find? (fun p => p.1 = c) = none := by
      rw [List.find?_eq_none]
      intro p hp
      have : p.1.toNat < 128 := by
        revert p
        decide
      simpa using ne' _ this
    unfold inQuotes
    rw [e1, e2]
    simp only
    rw [if_neg (by omega)]

theorem quote_eq (s : Str) : jsQuote s = s.flatMap inQuotes := by
  induction s with
  | nil => rfl
  | cons c s ih => rw [jsQuote, ih, quoteChar_eq]; rfl

/-! ### Lines -/

/-- Lines joined by a line feed and an indentation. -/
def joined (ind : Str) : List Str → Str
  | [] => []
  | [l] => l
  | l :: m :: ls => l ++ '\n' :: (ind ++ joined ind (m :: ls))

theorem joined_nil (ls : List Str) : joined [] ls = unlines ls := by
  induction ls with
  | nil => rfl
  | cons l ls ih =>
    cases ls with
    | nil => rfl
    | cons m ls => rw [joined, unlines, ih]; rfl

theorem joined_append (ind : Str) {xs ys : List Str} (hx : xs ≠ []) (hy : ys ≠ []) :
    joined ind (xs ++ ys) = joined ind xs ++ '\n' :: (ind ++ joined ind ys) := by
  induction xs with
  | nil => exact absurd rfl hx
  | cons l xs ih =>
    cases xs with
    | nil =>
      cases ys with
      | nil => exact absurd rfl hy
      | cons y ys => rfl
    | cons m xs =>
      show joined ind (l :: m :: (xs ++ ys)) = _
      rw [joined, joined]
      have := ih (by simp)
      rw [show m :: (xs ++ ys) = (m :: xs) ++ ys from rfl, this]
      simp

theorem joined_indent (ind g : Str) {ls : List Str} (h : ls ≠ []) :
    joined ind (ls.map (g ++ ·)) = g ++ joined (ind ++ g) ls := by
  induction ls with
  | nil => exact absurd rfl h
  | cons l ls ih =>
    cases ls with
    | nil => rfl
    | cons m ls =>
      have := ih (by simp)
      simp only [List.map_cons] at this ⊢
      rw [joined, joined, this]
      simp

theorem joined_comma (ind : Str) {ls : List Str} (h : ls ≠ []) : joined ind (comma ls) = joined ind ls ++ [','] := by
  induction ls with
  | nil => exact absurd rfl h
  | cons l ls ih =>
    cases ls with
    | nil => rfl
    | cons m ls =>
      have := ih (by simp)
      rw [comma]
      cases k : comma (m :: ls) with
      | nil =>
        cases ls <;> cases k
      | cons x xs =>
        rw [k] at this
        rw [joined, joined, this]
        simp

theorem joined_prefixed (ind t : Str) {ls : List Str} (h : ls ≠ []) : joined ind (prefixed t ls) = t ++ joined ind ls := by
  cases ls with
  | nil => exact absurd rfl h
  | cons l ls =>
    cases ls with
    | nil => rfl
    | cons m ls => simp [prefixed, joined]

theorem comma_ne {ls : List Str} (h : ls ≠ []) : comma ls ≠ [] := by
  cases ls with
  | nil => exact absurd rfl h
  | cons l ls => cases ls <;> simp [comma]
theorem prefixed_ne (t : Str) (ls : List Str) : prefixed t ls ≠ [] := by cases ls <;> simp [prefixed]
theorem bracketed_ne (l r : Str) (bs : List (List Str)) : bracketed l r bs ≠ [] := by cases bs <;> simp [bracketed]
theorem block_ne (v : JV) : block v ≠ [] := by
  cases v with
  | bool b => cases b <;> simp [block]
  | arr vs => rw [block]; exact bracketed_ne _ _ _
  | obj ms => rw [block]; exact bracketed_ne _ _ _
  | _ => simp [block]
theorem stacked_ne {b : List Str} {bs : List (List Str)} (h : b ≠ []) : stacked (b :: bs) ≠ [] := by
  cases bs with
  | nil => simpa [stacked] using h
  | cons c bs => simp [stacked, comma_ne h]

/-- The inside of brackets. -/
theorem joined_bracketed (ind l r : Str) {b : List Str} {bs : List (List Str)} (hb : b ≠ []) :
    joined ind (bracketed l r (b :: bs)) = l ++ '\n' :: (ind ++ joined ind (stacked (b :: bs)) ++ '\n' :: (ind ++ r)) := by
  rw [bracketed, joined_append _ (by simp) (by simp), joined_append _ (by simp) (stacked_ne hb)]
  simp [joined]

theorem joined_stacked_one (ind : Str) {b : List Str} (hb : b ≠ []) :
    joined ind (stacked [b]) = c! "  " ++ joined (ind ++ c! "  ") b := by
  rw [stacked, joined_indent _ _ hb]

theorem joined_stacked_more (ind : Str) {b c : List Str} {bs : List (List Str)} (hb : b ≠ []) (hc : c ≠ []) :
    joined ind (stacked (b :: c :: bs)) =
      c! "  " ++ joined (ind ++ c! "  ") b ++ c! ",\n" ++ ind ++ joined ind (stacked (c :: bs)) := by
  rw [stacked, joined_append _ (by simpa using comma_ne hb) (stacked_ne hc), joined_indent _ _ (comma_ne hb), joined_comma _ hb]
  simp

mutual
theorem stringify_block (ind : Str) : (v : JV) → v.stringify ind = joined ind (block v)
  | .null => by rw [JV.stringify, block]; rfl
  | .bool true => by rw [JV.stringify, block]; rfl
  | .bool false => by rw [JV.stringify, block]; rfl
  | .num l => by rw [JV.stringify, block]; rfl
  | .str r s => by rw [JV.stringify, block, quote_eq]; rfl
  | .arr [] => by rw [JV.stringify, block, blocks]; rfl
  | .arr (v :: vs) => by
      have := stringify_elems ind (v :: vs) (by simp)
      rw [JV.stringify, block, blocks, joined_bracketed _ _ _ (block_ne v)]
      rw [blocks] at this
      rw [this]
      simp
  | .obj [] => by rw [JV.stringify, block, memberBlocks]; rfl
  | .obj ((k, v) :: ms) => by
      have := stringify_members ind ((k, v) :: ms) (by simp)
      rw [JV.stringify, block, memberBlocks, joined_bracketed _ _ _ (prefixed_ne _ _)]
      rw [memberBlocks] at this
      rw [this]
      simp
theorem stringify_elems (ind : Str) : (vs : List JV) → vs ≠ [] →
    joined ind (stacked (blocks vs)) = c! "  " ++ JV.stringifyElems (ind ++ c! "  ") vs
  | [], h => absurd rfl h
  | [v], _ => by rw [blocks, blocks, joined_stacked_one _ (block_ne v), JV.stringifyElems, stringify_block]
  | v :: w :: vs, _ => by
      have := stringify_elems ind (w :: vs) (by simp)
      rw [blocks, blocks, joined_stacked_more _ (block_ne v) (block_ne w), JV.stringifyElems, stringify_block]
      rw [blocks] at this
      rw [this]
      simp
theorem stringify_members (ind : Str) : (ms : List ((Str × Str) × JV)) → ms ≠ [] →
    joined ind (stacked (memberBlocks ms)) = c! "  " ++ JV.stringifyMembers (ind ++ c! "  ") ms
  | [], h => absurd rfl h
  | [(k, v)], _ => by
      rw [memberBlocks, memberBlocks, joined_stacked_one _ (prefixed_ne _ _), JV.stringifyMembers, joined_prefixed _ _ (block_ne v),
        stringify_block, quote_eq]
      simp [quotedText]
  | (k, v) :: (l, w) :: ms, _ => by
      have := stringify_members ind ((l, w) :: ms) (by simp)
      rw [memberBlocks, memberBlocks, joined_stacked_more _ (prefixed_ne _ _) (prefixed_ne _ _), JV.stringifyMembers,
        joined_prefixed _ _ (block_ne v), stringify_block, quote_eq]
      rw [memberBlocks] at this
      rw [this]
      simp [quotedText]
end

theorem stringify_lines (v : JV) : v.stringify [] = unlines (block v) := by
  rw [stringify_block, joined_nil]

/-! ### Reading it back -/

theorem jsQuoteChar_cases (c : Char) :
    (jsQuoteChar c = [c] ∧ c ≠ '"' ∧ c ≠ '\\' ∧ 32 ≤ c.toNat) ∨
    (∃ e, jsQuoteChar c = ['\\', e] ∧ simpleEsc e = some c) ∨
    (jsQuoteChar c = ['\\', 'u', '0', '0', hexChar (c.toNat / 16), hexChar (c.toNat % 16)] ∧ c.toNat < 32) := by
  unfold jsQuoteChar
  by_cases h1 : c.toNat = 8
  · rw [if_pos h1, small_char h1]; exact .inr (.inl ⟨'b', rfl, rfl⟩)
  rw [if_neg h1]
  by_cases h2 : c.toNat = 9
  · rw [if_pos h2, small_char h2]; exact .inr (.inl ⟨'t', rfl, rfl⟩)
  rw [if_neg h2]
  by_cases h3 : c.toNat = 10
  · rw [if_pos h3, small_char h3]; exact .inr (.inl ⟨'n', rfl, rfl⟩)
  rw [if_neg h3]
  by_cases h4 : c.toNat = 12
  · rw [if_pos h4, small_char h4]; exact .inr (.inl ⟨'f', rfl, rfl⟩)
  rw [if_neg h4]
  by_cases h5 : c.toNat = 13
  · rw [if_pos h5, small_char h5]; exact .inr (.inl ⟨'r', rfl, rfl⟩)
  rw [if_neg h5]
  by_cases h6 : c = '"'
  · subst h6; exact .inr (.inl ⟨'"', rfl, rfl⟩)
  rw [if_neg h6]
  by_cases h7 : c = '\\'
  · subst h7; exact .inr (.inl ⟨'\\', rfl, rfl⟩)
  rw [if_neg h7]
  by_cases h8 : c.toNat < 32
  · rw [if_pos h8]; exact .inr (.inr ⟨rfl, h8⟩)
  rw [if_neg h8]
  exact .inl ⟨rfl, h6, h7, by omega⟩

theorem units_code {u : Nat} (h : u < 32) (is : List JItem) : unitsStr (.code u :: is) = Char.ofNat u :: unitsStr is := by
  have hl : loneChar u = Char.ofNat u := loneChar_not (by unfold HighSur LowSur; omega)
  cases is with
  | nil => show [loneChar u] = _; rw [hl]; rfl
  | cons i is =>
    cases i with
    | chr c => show loneChar u :: c :: unitsStr is = _; rw [hl]; rfl
    | code l => rw [unitsStr, if_neg (by unfold HighSur; omega), hl]

theorem jstring_quote (s : Str) : JString (jsQuote s) s := by
  induction s with
  | nil => exact ⟨[], .nil, rfl⟩
  | cons c s ih =>
    obtain ⟨is, h, e⟩ := ih
    rw [jsQuote]
    rcases jsQuoteChar_cases c with ⟨k, h1, h2, h3⟩ | ⟨x, k, hx⟩ | ⟨k, hl⟩
    · rw [k]
      exact ⟨_, .plain h1 h2 h3 h, by rw [unitsStr, ← e]⟩
    · rw [k]
      exact ⟨_, .escape ((esc_iff _ _).2 hx) h, by rw [unitsStr, ← e]⟩
    · rw [k]
      have := (esc_table c.toNat (by omega)).2
      obtain ⟨w, x, y, z, hw, hx, hy, hz, hu⟩ := (hex4_iff _ _ _ _ _).1 this
      refine ⟨_, .code hw hx hy hz h, ?_⟩
      rw [← hu, units_code hl, ← e, Char.ofNat_toNat]

mutual
/-- The document as it stands after JavaScript has written it: only the quoting differs. -/
def JV.requoted : JV → JV
  | .null => .null
  | .bool b => .bool b
  | .num l => .num l
  | .str _ s => .str (jsQuote s) s
  | .arr vs => .arr (JV.requotedElems vs)
  | .obj ms => .obj (JV.requotedMembers ms)
def JV.requotedElems : List JV → List JV
  | [] => []
  | v :: vs => v.requoted :: JV.requotedElems vs
def JV.requotedMembers : List ((Str × Str) × JV) → List ((Str × Str) × JV)
  | [] => []
  | (k, v) :: ms => ((jsQuote k.2, k.2), v.requoted) :: JV.requotedMembers ms
end

theorem jnumber_itoa (n : Int) : JNumber (itoa n) := by
  have h : scanNumber (itoa n) = some (itoa n, []) := by
    have := scanNumber_itoa n ValueEnd.nil
    rwa [List.append_nil] at this
  exact (scanNumber_inv h).2

theorem blank_nil : JBlank [] := fun _ h => absurd h List.not_mem_nil
theorem blank_spaces {s : Str} (h : ∀ c ∈ s, c = ' ') : JBlank s := fun c hc => .inl (h c hc)
theorem blank_line {s : Str} (h : ∀ c ∈ s, c = ' ') : JBlank ('\n' :: s) := by
  intro c hc
  rcases List.mem_cons.1 hc with rfl | hc
  · exact .inr (.inr (.inl rfl))
  · exact .inl (h c hc)
theorem spaces_more {s : Str} (h : ∀ c ∈ s, c = ' ') : ∀ c ∈ s ++ c! "  ", c = ' ' := by
  intro c hc
  rcases List.mem_append.1 hc with hc | hc
  · exact h c hc
  · simpa using hc

/- A list of values, or of members, with a line break before each and one at the end. -/
mutual
theorem stringify_text (ind : Str) (hi : ∀ c ∈ ind, c = ' ') : (v : JV) → v.Wf → JText v.requoted (v.stringify ind)
  | .null, _ => by rw [JV.stringify, JV.requoted]; exact .null
  | .bool true, _ => by rw [JV.stringify, JV.requoted]; exact .true
  | .bool false, _ => by rw [JV.stringify, JV.requoted]; exact .false
  | .num l, h => by
      rw [JV.Wf] at h
      obtain ⟨n, rfl⟩ := h
      rw [JV.stringify, JV.requoted]
      exact .num (jnumber_itoa n)
  | .str r s, _ => by rw [JV.stringify, JV.requoted]; exact .str (jstring_quote s)
  | .arr [], _ => by rw [JV.stringify, JV.requoted, JV.requotedElems]; exact .arr0 (b := []) blank_nil
  | .arr (v :: vs), h => by
      rw [JV.Wf] at h
      have := stringify_jelems (ind ++ c! "  ") (spaces_more hi) ('\n' :: ind) (blank_line hi) (v :: vs) (by simp) h
      rw [JV.stringify, JV.requoted]
      have k := JText.arr this
      simp only [List.append_assoc, List.cons_append, List.nil_append] at k ⊢
      exact k
  | .obj [], _ => by rw [JV.stringify, JV.requoted, JV.requotedMembers]; exact .obj0 (b := []) blank_nil
  | .obj ((k, v) :: ms), h => by
      rw [JV.Wf] at h
      have := stringify_jmembers (ind ++ c! "  ") (spaces_more hi) ('\n' :: ind) (blank_line hi) ((k, v) :: ms) (by simp) h
      rw [JV.stringify, JV.requoted]
      have k := JText.obj this
      simp only [List.append_assoc, List.cons_append, List.nil_append] at k ⊢
      exact k
theorem stringify_jelems (ind : Str) (hi : ∀ c ∈ ind, c = ' ') (e : Str) (he : JBlank e) : (vs : List JV) → vs ≠ [] →
    JV.WfElems vs → JElems (JV.requotedElems vs) (('\n' :: ind) ++ JV.stringifyElems ind vs ++ e)
  | [], h, _ => absurd rfl h
  | [v], _, h => by
      rw [JV.WfElems] at h
      rw [JV.requotedElems, JV.requotedElems, JV.stringifyElems]
      exact .one (blank_line hi) (stringify_text ind hi v h.1) he
  | v :: w :: vs, _, h => by
      rw [JV.WfElems] at h
      have := stringify_jelems ind hi e he (w :: vs) (by simp) h.2
      rw [JV.requotedElems, JV.stringifyElems]
      have k := JElems.more (blank_line hi) (stringify_text ind hi v h.1) blank_nil this
      simp only [List.append_assoc, List.cons_append, List.nil_append] at k ⊢
      exact k
theorem stringify_jmembers (ind : Str) (hi : ∀ c ∈ ind, c = ' ') (e : Str) (he : JBlank e) : (ms : List ((Str × Str) × JV)) →
    ms ≠ [] → JV.WfMembers ms → JMembers (JV.requotedMembers ms) (('\n' :: ind) ++ JV.stringifyMembers ind ms ++ e)
  | [], h, _ => absurd rfl h
  | [(k, v)], _, h => by
      rw [JV.WfMembers] at h
      rw [JV.requotedMembers, JV.requotedMembers, JV.stringifyMembers]
      have k := JMembers.one (blank_line hi) (jstring_quote k.2) blank_nil (blank_spaces (s := [' ']) (by simp))
        (stringify_text ind hi v h.2.1) he
      simp only [List.append_assoc, List.cons_append, List.nil_append] at k ⊢
      exact k
  | (k, v) :: (l, w) :: ms, _, h => by
      rw [JV.WfMembers] at h
      have := stringify_jmembers ind hi e he ((l, w) :: ms) (by simp) h.2.2
      rw [JV.requotedMembers, JV.stringifyMembers]
      have k := JMembers.more (blank_line hi) (jstring_quote k.2) blank_nil (blank_spaces (s := [' ']) (by simp))
        (stringify_text ind hi v h.2.1) blank_nil this
      simp only [List.append_assoc, List.cons_append, List.nil_append] at k ⊢
      exact k
end

mutual
theorem requoted_depth : (v : JV) → v.requoted.depth = v.depth
  | .null => by rw [JV.requoted]
  | .bool _ => by rw [JV.requoted]
  | .num _ => by rw [JV.requoted]
  | .str _ _ => by rw [JV.requoted, JV.depth, JV.depth] <;> (intros; simp_all)
  | .arr vs => by rw [JV.requoted, JV.depth, JV.depth, requoted_depthElems vs]
  | .obj ms => by rw [JV.requoted, JV.depth, JV.depth, requoted_depthMembers ms]
theorem requoted_depthElems : (vs : List JV) → JV.depthElems (JV.requotedElems vs) = JV.depthElems vs
  | [] => by rw [JV.requotedElems]
  | v :: vs => by rw [JV.requotedElems, JV.depthElems, JV.depthElems, requoted_depth v, requoted_depthElems vs]
theorem requoted_depthMembers : (ms : List ((Str × Str) × JV)) → JV.depthMembers (JV.requotedMembers ms) = JV.depthMembers ms
  | [] => by rw [JV.requotedMembers]
  | (k, v) :: ms => by rw [JV.requotedMembers, JV.depthMembers, JV.depthMembers, requoted_depth v, requoted_depthMembers ms]
end

theorem readJson_stringify {v : JV} (h : v.Wf) (hd : v.depth ≤ 10000) : readJson (v.stringify []) = some v.requoted := by
  rw [C71_reads]
  refine ⟨⟨[], _, [], blank_nil, stringify_text [] (fun _ h => absurd h List.not_mem_nil) v h, blank_nil, by simp⟩, ?_⟩
  rw [nested_iff, requoted_depth]
  exact hd

/-! ### The readers do not look at the quoting -/

theorem readStr_requoted (old : Str) (v : JV) : readStr old v.requoted = readStr old v := by
  cases v <;> rw [JV.requoted] <;> rfl
theorem readInt_requoted (old : Int) (v : JV) : readInt old v.requoted = readInt old v := by
  cases v <;> rw [JV.requoted] <;> rfl
theorem readPrec_requoted (old : Prec) (v : JV) : readPrec old v.requoted = readPrec old v := by
  cases v <;> rw [JV.requoted] <;> rfl
theorem readBool_requoted (old : Bool) (v : JV) : readBool old v.requoted = readBool old v := by
  cases v <;> rw [JV.requoted] <;> rfl

theorem readMembers_requoted {α : Type} {f : α → Str → JV → Option α} {ms : List ((Str × Str) × JV)}
    (h : ∀ m ∈ ms, ∀ a, f a m.1.2 m.2.requoted = f a m.1.2 m.2) (a : α) :
    readMembers f a (JV.requotedMembers ms) = readMembers f a ms := by
  induction ms generalizing a with
  | nil => rw [JV.requotedMembers]
  | cons m ms ih =>
    obtain ⟨k, v⟩ := m
    rw [JV.requotedMembers, readMembers, readMembers, h (k, v) (by simp)]
    congr 1
    funext b
    exact ih (fun m hm => h m (by simp [hm])) b

theorem readPtr_requoted {α : Type} {z : α} {f : α → JV → Option α} {v : JV} (h : ∀ a, f a v.requoted = f a v) (old : Option α) :
    readPtr z f old v.requoted = readPtr z f old v := by
  cases v with
  | null => rw [JV.requoted]
  | bool b => rw [JV.requoted]
  | num l => rw [JV.requoted]
  | _ =>
    have := h (old.getD z)
    rw [JV.requoted] at this ⊢
    show (f _ _).map some = (f _ _).map some
    rw [this]

theorem ymd_requoted (y : YMD) (v : JV) : YMD.ofJson y v.requoted = YMD.ofJson y v := by
  cases v with
  | obj ms =>
    rw [JV.requoted]
    show readMembers _ _ _ = readMembers _ _ _
    refine readMembers_requoted (fun m _ a => ?_) y
    simp only [YMD.readField, readInt_requoted]
  | _ => rw [JV.requoted] <;> rfl

/-- Not a string. -/
def NotStr (v : JV) : Prop := ∀ r s, v ≠ .str r s

theorem readTimestamp_requoted {v : JV} (h : NotStr v) : readTimestamp v.requoted = readTimestamp v := by
  cases v with
  | str r s => exact absurd rfl (h r s)
  | _ => rw [JV.requoted] <;> rfl

/-- No time of an object is a string. -/
def NoTimeStr (v : JV) : Prop := ∀ ms, v = .obj ms → ∀ m ∈ ms, sameKey m.1.2 (c! "timestamp") = true → NotStr m.2

theorem date_requoted {v : JV} (h : NoTimeStr v) (d : Date) : Date.ofJson d v.requoted = Date.ofJson d v := by
  cases v with
  | obj ms =>
    rw [JV.requoted]
    show readMembers _ _ _ = readMembers _ _ _
    refine readMembers_requoted (fun m hm a => ?_) d
    by_cases k : sameKey m.1.2 (c! "timestamp") = true
    · have e : readPtr 0 (fun _ w => readTimestamp w) a.timestamp m.2.requoted = readPtr 0 (fun _ w => readTimestamp w) a.timestamp m.2 :=
        readPtr_requoted (fun _ => readTimestamp_requoted (h ms rfl m hm k)) _
      simp only [Date.readField, readStr_requoted, readPrec_requoted, readBool_requoted, e, readPtr_requoted (fun a => ymd_requoted a m.2)]
    · simp only [Date.readField, readStr_requoted, readPrec_requoted, readBool_requoted, k, if_false, Bool.false_eq_true,
        readPtr_requoted (fun a => ymd_requoted a m.2)]
  | _ => rw [JV.requoted] <;> rfl

theorem range_requoted {v : JV} (h : ∀ ms, v = .obj ms → ∀ m ∈ ms, NoTimeStr m.2) (r : DateRange) :
    DateRange.ofJson r v.requoted = DateRange.ofJson r v := by
  cases v with
  | obj ms =>
    rw [JV.requoted]
    show readMembers _ _ _ = readMembers _ _ _
    refine readMembers_requoted (fun m hm a => ?_) r
    simp only [DateRange.readField, readStr_requoted, readPtr_requoted (fun a => date_requoted (h ms rfl m hm) a)]
  | _ => rw [JV.requoted] <;> rfl

theorem edtf_requoted {v : JV} (h : ∀ ms, v = .obj ms → ∀ m ∈ ms, ∀ ns, m.2 = .obj ns → ∀ n ∈ ns, NoTimeStr n.2) (d : EDTFDate) :
    EDTFDate.ofJson d v.requoted = EDTFDate.ofJson d v := by
  cases v with
  | obj ms =>
    rw [JV.requoted]
    show readMembers _ _ _ = readMembers _ _ _
    refine readMembers_requoted (fun m hm a => ?_) d
    simp only [EDTFDate.readField, readStr_requoted, readInt_requoted, readPtr_requoted (fun a => range_requoted (h ms rfl m hm) a)]
  | _ => rw [JV.requoted] <;> rfl

theorem noTime_date (d : Date) : NoTimeStr d.toJson := by
  intro ms e m hm k
  unfold Date.toJson at e
  injection e with e
  subst e
  have key : ∀ {n : Str} {b : Bool} {w : JV}, m ∈ fieldOmit n b w → (NotStr w ∨ sameKey n (c! "timestamp") = false) → NotStr m.2 := by
    intro n b w hm hw
    have : m = ((n, n), w) := by
      unfold fieldOmit field at hm
      split at hm
      · exact absurd hm List.not_mem_nil
      · simpa using hm
    subst this
    rcases hw with hw | hw
    · exact hw
    · rw [hw] at k; cases k
  simp only [List.mem_append] at hm
  rcases hm with ((((((((hm | hm) | hm) | hm) | hm) | hm) | hm) | hm) | hm) | hm
  · exact key hm (.inr (by decide))
  · refine key hm (.inl ?_)
    cases d.timestamp <;> nofun
  · unfold field at hm
    have : m = ((c! "ymd", c! "ymd"), ofPtr YMD.toJson d.ymd) := by simpa using hm
    subst this
    cases d.ymd <;> nofun
  all_goals exact key hm (.inl (by nofun))

theorem noTime_range (r : DateRange) : ∀ ms, r.toJson = .obj ms → ∀ m ∈ ms, NoTimeStr m.2 := by
  intro ms e m hm
  unfold DateRange.toJson at e
  injection e with e
  subst e
  have pt : ∀ o : Option Date, NoTimeStr (ofPtr Date.toJson o) := by
    intro o
    cases o with
    | none => intro ms e; cases e
    | some d => exact noTime_date d
  simp only [List.mem_append, field, List.mem_singleton] at hm
  rcases hm with (hm | hm) | hm
  · subst hm; intro ms e; cases e
  · subst hm; exact pt _
  · subst hm; exact pt _

theorem noTime_edtf (d : EDTFDate) : ∀ ms, d.toJson = .obj ms → ∀ m ∈ ms, ∀ ns, m.2 = .obj ns → ∀ n ∈ ns, NoTimeStr n.2 := by
  intro ms e m hm
  unfold EDTFDate.toJson at e
  injection e with e
  subst e
  have pt : ∀ o : Option DateRange, ∀ ns, ofPtr DateRange.toJson o = .obj ns → ∀ n ∈ ns, NoTimeStr n.2 := by
    intro o
    cases o with
    | none => intro ms e; cases e
    | some d => exact noTime_range d
  simp only [List.mem_append, field, List.mem_singleton] at hm
  rcases hm with (((hm | hm) | hm) | hm) | hm
  · subst hm; exact pt _
  · subst hm; exact pt _
  all_goals (subst hm; intro ms e; cases e)

/-- What JavaScript writes is read back by Go. -/
theorem unmarshal_stringify {d : EDTFDate} (h : Spec.Fits64 d) : EDTFDate.unmarshal (d.toJson.stringify []) = some d := by
  unfold EDTFDate.unmarshal
  rw [readJson_stringify (wf_edtf d) (by have := depth_edtf d; omega)]
  exact (edtf_requoted (noTime_edtf d) _).trans (edtf_round h)

/-! ### Nothing changes in JavaScript -/

theorem js_itoa {n : Int} (h : n.natAbs ≤ 2 ^ 53) : plainNumber (itoa n) = true := by
  unfold plainNumber
  rw [parseInt_itoa n (by omega) (by omega)]
  simp [h]

theorem js_ofInt {n : Int} (h : n.natAbs ≤ 2 ^ 53) : (JV.ofInt n).plain = true := by
  unfold JV.ofInt
  rw [JV.plain]
  exact js_itoa h

theorem js_members_append (xs ys : List ((Str × Str) × JV)) :
    JV.plainMembers (xs ++ ys) = (JV.plainMembers xs && JV.plainMembers ys) := by
  induction xs with
  | nil => rw [JV.plainMembers]; simp
  | cons m xs ih =>
    obtain ⟨k, v⟩ := m
    rw [List.cons_append, JV.plainMembers, JV.plainMembers, ih]
    simp [Bool.and_assoc]

theorem js_field {n : Str} {v : JV} (hn : n.all isDig = false) (h : v.plain = true) : JV.plainMembers (field n v) = true := by
  unfold field
  rw [JV.plainMembers, JV.plainMembers]
  simp [hn, h]

theorem js_omit {n : Str} {b : Bool} {v : JV} (hn : n.all isDig = false) (h : b = false → v.plain = true) :
    JV.plainMembers (fieldOmit n b v) = true := by
  unfold fieldOmit
  split
  · rw [JV.plainMembers]
  · exact js_field hn (h (by simpa using ‹¬b = true›))

theorem js_obj {ms : List ((Str × Str) × JV)} {names : List Str} (h : JV.plainMembers ms = true)
    (hs : (ms.map (fun m => m.1.2)).Sublist names) (hn : names.Nodup) : (JV.obj ms).plain = true := by
  rw [JV.plain, h]
  simp [hn.sublist hs]

theorem js_ptr {α : Type} {w : α → JV} {o : Option α} (h : ∀ a, o = some a → (w a).plain = true) : (ofPtr w o).plain = true := by
  cases o with
  | none => rw [ofPtr, JV.plain]
  | some a => exact h a rfl

theorem js_str (s : Str) : (JV.ofStr s).plain = true := by unfold JV.ofStr; rw [JV.plain]
theorem js_bool (b : Bool) : (JV.bool b).plain = true := by rw [JV.plain]
theorem js_prec (p : Prec) : (JV.ofInt p.toNat).plain = true := js_ofInt (by have := p.isLt; omega)

/-- Integers that JavaScript keeps. -/
def Fits53 (n : Int) : Prop := n.natAbs ≤ 2 ^ 53
def Fits53Date (d : Date) : Prop :=
  (∀ t, d.timestamp = some t → Fits53 t) ∧ (∀ y, d.ymd = some y → Fits53 y.year ∧ Fits53 y.month ∧ Fits53 y.day)
def Fits53Range (r : DateRange) : Prop := (∀ b, r.lower = some b → Fits53Date b) ∧ (∀ b, r.upper = some b → Fits53Date b)

theorem names_field (n : Str) (v : JV) : (field n v).map (fun m => m.1.2) = [n] := rfl
theorem names_omit (n : Str) (b : Bool) (v : JV) : ((fieldOmit n b v).map (fun m => m.1.2)).Sublist [n] := by
  unfold fieldOmit
  split
  · simp
  · simp [names_field]

theorem js_ymd {y : YMD} (h : Fits53 y.year ∧ Fits53 y.month ∧ Fits53 y.day) : y.toJson.plain = true := by
  unfold YMD.toJson
  refine js_obj (names := [c! "year", c! "month", c! "day"]) ?_ (by simp [names_field]) (by decide)
  simp only [js_members_append, Bool.and_eq_true]
  exact ⟨⟨js_field (by decide) (js_ofInt h.1), js_field (by decide) (js_ofInt h.2.1)⟩, js_field (by decide) (js_ofInt h.2.2)⟩

theorem js_date {d : Date} (h : Fits53Date d) : d.toJson.plain = true := by
  unfold Date.toJson
  refine js_obj (names := [c! "datetime"] ++ [c! "timestamp"] ++ [c! "ymd"] ++ [c! "uncertain"] ++ [c! "approximate"] ++
    [c! "unspecified"] ++ [c! "precision"] ++ [c! "open"] ++ [c! "unknown"] ++ [c! "inclusivity"]) ?_ ?_ (by decide)
  · simp only [js_members_append, Bool.and_eq_true]
    refine ⟨⟨⟨⟨⟨⟨⟨⟨⟨js_omit (by decide) fun _ => js_str _, js_omit (by decide) fun _ => js_ptr fun t ht => ?_⟩,
      js_field (by decide) (js_ptr fun y hy => js_ymd (h.2 y hy))⟩, js_omit (by decide) fun _ => js_prec _⟩,
      js_omit (by decide) fun _ => js_prec _⟩, js_omit (by decide) fun _ => js_prec _⟩,
      js_omit (by decide) fun _ => js_prec _⟩, js_omit (by decide) fun _ => js_bool _⟩,
      js_omit (by decide) fun _ => js_bool _⟩, js_omit (by decide) fun _ => js_prec _⟩
    rw [JV.plain]
    exact js_itoa (h.1 t ht)
  · simp only [List.map_append]
    exact ((((((((((names_omit _ _ _).append (names_omit _ _ _)).append (List.Sublist.refl _)).append (names_omit _ _ _)).append
      (names_omit _ _ _)).append (names_omit _ _ _)).append (names_omit _ _ _)).append (names_omit _ _ _)).append
      (names_omit _ _ _)).append (names_omit _ _ _))

theorem js_range {r : DateRange} (h : Fits53Range r) : r.toJson.plain = true := by
  unfold DateRange.toJson
  refine js_obj (names := [c! "edtf", c! "lower", c! "upper"]) ?_ (by simp [names_field]) (by decide)
  simp only [js_members_append, Bool.and_eq_true]
  exact ⟨⟨js_field (by decide) (js_str _), js_field (by decide) (js_ptr fun b hb => js_date (h.1 b hb))⟩,
    js_field (by decide) (js_ptr fun b hb => js_date (h.2 b hb))⟩

theorem js_edtf {d : EDTFDate} (h1 : ∀ r, d.start = some r → Fits53Range r) (h2 : ∀ r, d.stop = some r → Fits53Range r)
    (h3 : Fits53 d.level) : d.toJson.plain = true := by
  unfold EDTFDate.toJson
  refine js_obj (names := [c! "start", c! "end", c! "edtf", c! "level", c! "feature"]) ?_ (by simp [names_field]) (by decide)
  simp only [js_members_append, Bool.and_eq_true]
  exact ⟨⟨⟨⟨js_field (by decide) (js_ptr fun b hb => js_range (h1 b hb)),
    js_field (by decide) (js_ptr fun b hb => js_range (h2 b hb))⟩, js_field (by decide) (js_str _)⟩,
    js_field (by decide) (js_ofInt h3)⟩, js_field (by decide) (js_str _)⟩

theorem fits53_boundary {b : Date} (h : Boundary U b) : Fits53Date b := by
  have dy : ∀ {y : Int} {m d : Nat}, Valid y m d → -10000 ≤ y → y ≤ 10000 → -5000000 ≤ U y m d ∧ U y m d ≤ 5000000 := by
    intro y m d V h1 h2
    have Vl : Valid (-10000) 1 1 := by decide
    have Vh : Valid 10000 12 31 := by decide
    have V' := V
    unfold Valid at V'
    have a := day_order dayCount_unixDay Vl V (by unfold dayLe; omega)
    have b := day_order dayCount_unixDay V Vh (by unfold dayLe; have := monthLen_le y m; omega)
    have a1 : -5000000 ≤ U (-10000) 1 1 := by decide +kernel
    have b1 : U 10000 12 31 ≤ 5000000 := by decide +kernel
    exact ⟨Int.le_trans a1 a, Int.le_trans b b1⟩
  rcases h with ⟨-, -, y, m, d, hh, mi, ss, V, h1, h2, h3, h4, h5, -, ht, hy⟩ | ⟨-, -, -, ht, hy⟩ | ⟨-, -, -, ht, hy⟩
  · have := dy V h4 h5
    constructor
    · intro t e
      rw [ht] at e
      injection e with e
      unfold Fits53; omega
    · intro v e
      rcases hy with hy | hy
      · rw [hy] at e; cases e
      · rw [hy] at e
        injection e with e
        subst e
        unfold Valid at V
        have := monthLen_le y m
        refine ⟨?_, ?_, ?_⟩ <;> (unfold Fits53; simp only; omega)
  all_goals
    constructor
    · intro t e; rw [ht] at e; cases e
    · intro t e; rw [hy] at e; cases e

theorem js_parsed {s : Str} {d : EDTFDate} (h : parseString s = .ok d) : d.toJson.plain = true := by
  obtain ⟨es, ee, sl, su, el, eu, h1, h2, b1, b2, b3, b4⟩ := C31_wellformed dayCount_unixDay h
  refine js_edtf ?_ ?_ ?_
  · intro r hr
    rw [h1] at hr
    injection hr with hr
    subst hr
    exact ⟨fun b e => by injection e with e; subst e; exact fits53_boundary b1, fun b e => by injection e with e; subst e; exact fits53_boundary b2⟩
  · intro r hr
    rw [h2] at hr
    injection hr with hr
    subst hr
    exact ⟨fun b e => by injection e with e; subst e; exact fits53_boundary b3, fun b e => by injection e with e; subst e; exact fits53_boundary b4⟩
  · have : d.level = -1 ∨ d.level = 0 ∨ d.level = 1 ∨ d.level = 2 := by
      rcases (parse_inv h).2.2 with h | h
      · exact .inl h.1
      · exact .inr h.2
    unfold Fits53; omega

end EDTF
