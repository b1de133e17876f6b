/- Sets: sorting, splitting, and the members found. -/
import Verif.LemmasIv
namespace EDTF
open Spec

/-! ### The order of strings -/

theorem strLe_refl (a : Str) : strLe a a = true := by
  induction a with
  | nil => rfl
  | cons c cs ih => simp [strLe, ih]

theorem strLe_total (a b : Str) : strLe a b = true ∨ strLe b a = true := by
  induction a generalizing b with
  | nil => exact .inl rfl
  | cons c cs ih =>
    cases b with
    | nil => exact .inr rfl
    | cons d ds =>
      unfold strLe
      by_cases h1 : c.toNat < d.toNat
      · left; simp [h1]
      · by_cases h2 : d.toNat < c.toNat
        · right; simp [h2]
        · simp only [h1, h2, if_false]; exact ih ds

theorem strLe_trans {a b c : Str} (h1 : strLe a b = true) (h2 : strLe b c = true) : strLe a c = true := by
  induction a generalizing b c with
  | nil => rfl
  | cons x xs ih =>
    cases b with
    | nil => cases h1
    | cons y ys =>
      cases c with
      | nil => cases h2
      | cons z zs =>
        unfold strLe at h1 h2 ⊢
        by_cases a1 : x.toNat < y.toNat
        · by_cases a2 : y.toNat < z.toNat
          · rw [if_pos (by omega)]
          · rw [if_neg a2] at h2
            by_cases a3 : z.toNat < y.toNat
            · rw [if_pos a3] at h2; cases h2
            · rw [if_pos (by omega)]
        · rw [if_neg a1] at h1
          by_cases a4 : y.toNat < x.toNat
          · rw [if_pos a4] at h1; cases h1
          · rw [if_neg a4] at h1
            by_cases a2 : y.toNat < z.toNat
            · rw [if_pos (by omega)]
            · rw [if_neg a2] at h2
              by_cases a3 : z.toNat < y.toNat
              · rw [if_pos a3] at h2; cases h2
              · rw [if_neg a3] at h2
                rw [if_neg (by omega), if_neg (by omega)]
                exact ih h1 h2

theorem strLe_antisymm {a b : Str} (h1 : strLe a b = true) (h2 : strLe b a = true) : a = b := by
  induction a generalizing b with
  | nil => cases b with
    | nil => rfl
    | cons _ _ => cases h2
  | cons x xs ih =>
    cases b with
    | nil => cases h1
    | cons y ys =>
      unfold strLe at h1 h2
      by_cases a1 : x.toNat < y.toNat
      · rw [if_neg (by omega), if_pos a1] at h2; cases h2
      · rw [if_neg a1] at h1
        by_cases a4 : y.toNat < x.toNat
        · rw [if_pos a4] at h1; cases h1
        · rw [if_neg a4] at h1
          rw [if_neg a4, if_neg a1] at h2
          rw [ih h1 h2, char_of_toNat (show x.toNat = y.toNat by omega)]

theorem mem_insertStr {x y : Str} {l : List Str} : y ∈ insertStr x l ↔ y = x ∨ y ∈ l := by
  induction l with
  | nil => simp [insertStr]
  | cons z zs ih =>
    unfold insertStr
    split
    · simp
    · simp only [List.mem_cons, ih]
      constructor
      · rintro (h | h | h) <;> simp [h]
      · rintro (h | h | h) <;> simp [h]

theorem mem_sortStrings {y : Str} {l : List Str} : y ∈ sortStrings l ↔ y ∈ l := by
  induction l with
  | nil => rfl
  | cons z zs ih => simp only [sortStrings, mem_insertStr, ih, List.mem_cons]

theorem length_insertStr (x : Str) (l : List Str) : (insertStr x l).length = l.length + 1 := by
  induction l with
  | nil => rfl
  | cons z zs ih => unfold insertStr; split <;> simp [ih]

theorem length_sortStrings (l : List Str) : (sortStrings l).length = l.length := by
  induction l with
  | nil => rfl
  | cons z zs ih => simp [sortStrings, length_insertStr, ih]

/-- The list is in order. -/
def Sorted : List Str → Prop
  | [] => True
  | x :: xs => (∀ y ∈ xs, strLe x y = true) ∧ Sorted xs

theorem sorted_insertStr {x : Str} {l : List Str} (h : Sorted l) : Sorted (insertStr x l) := by
  induction l with
  | nil => exact ⟨fun y hy => (by cases hy), trivial⟩
  | cons z zs ih =>
    obtain ⟨h1, h2⟩ := h
    unfold insertStr
    split
    · rename_i hx
      refine ⟨fun y hy => ?_, h1, h2⟩
      rcases List.mem_cons.1 hy with rfl | hy
      · exact hx
      · exact strLe_trans hx (h1 y hy)
    · rename_i hx
      refine ⟨fun y hy => ?_, ih h2⟩
      rcases mem_insertStr.1 hy with rfl | hy
      · rcases strLe_total y z with h | h
        · exact absurd h hx
        · exact h
      · exact h1 y hy

theorem sorted_sortStrings (l : List Str) : Sorted (sortStrings l) := by
  induction l with
  | nil => trivial
  | cons z zs ih => exact sorted_insertStr ih

theorem sorted_head {l : List Str} (h : Sorted l) (hl : l ≠ []) : l.headD [] ∈ l ∧ ∀ y ∈ l, strLe (l.headD []) y = true := by
  cases l with
  | nil => exact absurd rfl hl
  | cons x xs =>
    refine ⟨by simp, fun y hy => ?_⟩
    rcases List.mem_cons.1 hy with rfl | hy
    · exact strLe_refl _
    · exact h.1 y hy

theorem sorted_last {l : List Str} (h : Sorted l) (hl : l ≠ []) : l.getLastD [] ∈ l ∧ ∀ y ∈ l, strLe y (l.getLastD []) = true := by
  induction l with
  | nil => exact absurd rfl hl
  | cons x xs ih =>
    by_cases hx : xs = []
    · subst hx
      refine ⟨by simp [List.getLastD], fun y hy => ?_⟩
      rw [List.mem_singleton.1 hy]
      exact strLe_refl _
    · obtain ⟨i1, i2⟩ := ih h.2 hx
      have e : (x :: xs).getLastD [] = xs.getLastD [] := by
        cases xs with
        | nil => exact absurd rfl hx
        | cons y ys => simp [List.getLastD]
      rw [e]
      refine ⟨List.mem_cons_of_mem _ i1, fun y hy => ?_⟩
      rcases List.mem_cons.1 hy with rfl | hy
      · exact h.1 _ i1
      · exact i2 y hy

/-! ### Splitting -/

theorem splitDots_none {u : Str} (h : '.' ∉ u) : splitDots u = [u] := by
  match u with
  | [] => rfl
  | [c] => rfl
  | c :: d :: cs =>
    have h1 : c ≠ '.' := fun e => h (by simp [e])
    have ih := splitDots_none (u := d :: cs) (fun e => h (List.mem_cons_of_mem _ e))
    unfold splitDots
    rw [if_neg (fun e => h1 e.1), ih]

theorem splitDots_cons2 (c d : Char) (cs : Str) : splitDots (c :: d :: cs) =
    if c = '.' ∧ d = '.' then [] :: splitDots cs
    else match splitDots (d :: cs) with
      | [] => [[c]]
      | p :: ps => (c :: p) :: ps := by
  conv => lhs; unfold splitDots
  rfl

theorem splitDots_append {u : Str} (h : '.' ∉ u) (v : Str) : splitDots (u ++ '.' :: '.' :: v) = u :: splitDots v := by
  match u with
  | [] => rw [List.nil_append, splitDots_cons2, if_pos ⟨rfl, rfl⟩]
  | [c] =>
    have h1 : c ≠ '.' := fun e => h (by simp [e])
    show splitDots (c :: '.' :: '.' :: v) = _
    rw [splitDots_cons2, if_neg (fun e => h1 e.1), splitDots_cons2, if_pos ⟨rfl, rfl⟩]
  | c :: d :: cs =>
    have h1 : c ≠ '.' := fun e => h (by simp [e])
    have ih := splitDots_append (u := d :: cs) (fun e => h (List.mem_cons_of_mem _ e)) v
    show splitDots (c :: d :: (cs ++ '.' :: '.' :: v)) = _
    rw [splitDots_cons2, if_neg (fun e => h1 e.1)]
    rw [show d :: (cs ++ '.' :: '.' :: v) = (d :: cs) ++ '.' :: '.' :: v from rfl, ih]

theorem splitChar_commaJoin {l : List Str} (hl : l ≠ []) (h : ∀ x ∈ l, ',' ∉ x) : splitChar ',' (commaJoin l) = l := by
  induction l with
  | nil => exact absurd rfl hl
  | cons x xs ih =>
    cases xs with
    | nil => exact splitChar_none (h x (by simp))
    | cons y ys =>
      show splitChar ',' (x ++ ',' :: commaJoin (y :: ys)) = _
      rw [splitChar_append (h x (by simp)), ih (by simp) (fun z hz => h z (List.mem_cons_of_mem _ hz))]

theorem part_comma (p : Part) : ',' ∉ p.text := by
  have h : ∀ x : Date0, ',' ∉ x.text := fun x => date0_not_mem x (by decide) (by decide)
  cases p with
  | one x => exact h x
  | pair a b => simp [Part.text, h]
  | upTo x => simp [Part.text, h]
  | onFrom x => simp [Part.text, h]

/-! ### Collecting the members -/

theorem collect_parts (s : Str) (ps : List Part) (acc : L2.SetMembers) :
    L2.collectMembers s (ps.map Part.text) acc = .ok
      { possible := acc.possible ++ (members ps).map Date0.text
        start_open := acc.start_open || ps.any Part.isUpTo
        end_open := acc.end_open || ps.any Part.isOnFrom } := by
  induction ps generalizing acc with
  | nil => simp [L2.collectMembers, members]
  | cons p ps ih =>
    have hd : ∀ x : Date0, '.' ∉ x.text := fun x => date0_not_mem x (by decide) (by decide)
    have hn : ∀ x : Date0, x.text ≠ [] := date0_ne_nil
    rw [List.map_cons]
    unfold L2.collectMembers
    cases p with
    | one x =>
      rw [show (Part.one x).text = x.text from rfl, splitDots_none (hd x)]
      simp only
      rw [ih]
      simp [members, Part.dates, Part.isUpTo, Part.isOnFrom]
    | pair a b =>
      rw [show (Part.pair a b).text = a.text ++ '.' :: '.' :: b.text by simp [Part.text], splitDots_append (hd a), splitDots_none (hd b)]
      simp only
      rw [if_pos ⟨hn a, hn b⟩, ih]
      simp [members, Part.dates, Part.isUpTo, Part.isOnFrom]
    | upTo x =>
      rw [show (Part.upTo x).text = [] ++ '.' :: '.' :: x.text by simp [Part.text], splitDots_append (by simp), splitDots_none (hd x)]
      simp only
      rw [if_neg (by simp), if_pos trivial, ih]
      simp [members, Part.dates, Part.isUpTo, Part.isOnFrom]
    | onFrom x =>
      rw [show (Part.onFrom x).text = x.text ++ '.' :: '.' :: [] by simp [Part.text], splitDots_append (hd x), splitDots_none (u := []) (by simp)]
      simp only
      rw [if_neg (by simp), if_neg (hn x), ih]
      simp [members, Part.dates, Part.isUpTo, Part.isOnFrom]

/-! ### The pattern -/

/-- One repetition in the pattern. -/
def setStep : Re := Rx.date 3 ⬝ .opt (Rx.lit ',' ∥ Rx.dots)

/-- A date as the set pattern reads it. -/
def Shape (x : Date0) : Prop := x.year < 10000 ∧ Date0.shapeOk x

theorem lang_dots {w : Str} : Lang Rx.dots w ↔ w = c! ".." := by
  unfold Rx.dots
  rw [lang_cat]
  simp only [lang_lit]
  constructor
  · rintro ⟨u, v, rfl, rfl, rfl⟩; rfl
  · rintro rfl; exact ⟨_, _, rfl, rfl, rfl⟩

theorem step_plain {x : Date0} (h : Shape x) : Lang setStep x.text :=
  ⟨_, [], (List.append_nil _).symm, lang_date.2 ⟨x, h.1, h.2, rfl⟩, .inl rfl⟩
theorem step_comma {x : Date0} (h : Shape x) : Lang setStep (x.text ++ [',']) :=
  ⟨_, _, rfl, lang_date.2 ⟨x, h.1, h.2, rfl⟩, .inr (.inl (lang_lit.2 rfl))⟩
theorem step_dots {x : Date0} (h : Shape x) : Lang setStep (x.text ++ c! "..") :=
  ⟨_, _, rfl, lang_date.2 ⟨x, h.1, h.2, rfl⟩, .inr (.inr (lang_dots.2 rfl))⟩

theorem star_append {P : Str → Prop} {u v : Str} (hu : P u) (hv : Star P v) : Star P (u ++ v) := by
  by_cases h : u = []
  · subst h; exact hv
  · exact .cons u v hu h hv

/-- Parts none of which is `..x`, with `x..` only at the end. -/
theorem star_parts {ps : List Part} (h1 : ∀ p ∈ ps, p.isUpTo = false) (h2 : ∀ p ∈ ps.dropLast, p.isOnFrom = false)
    (hs : ∀ x ∈ members ps, Shape x) : Star (Lang setStep) (commaJoin (ps.map Part.text)) := by
  induction ps with
  | nil => exact .nil
  | cons p ps ih =>
    have hsp : ∀ x ∈ p.dates, Shape x := fun x hx => hs x (by simp [members, hx])
    have hss : ∀ x ∈ members ps, Shape x := fun x hx => hs x (by
      simp only [members, List.flatMap_cons, List.mem_append] at hx ⊢; exact .inr hx)
    cases ps with
    | nil =>
      show Star (Lang setStep) p.text
      cases p with
      | one x => simpa [Part.text] using star_append (step_plain (hsp x (by simp [Part.dates]))) .nil
      | pair a b =>
        have := star_append (step_dots (hsp a (by simp [Part.dates]))) (star_append (step_plain (hsp b (by simp [Part.dates]))) .nil)
        simpa [Part.text] using this
      | upTo x => simp [Part.isUpTo] at h1
      | onFrom x => simpa [Part.text] using star_append (step_dots (hsp x (by simp [Part.dates]))) .nil
    | cons q qs =>
      have hr := ih (fun x hx => h1 x (List.mem_cons_of_mem _ hx))
        (fun x hx => h2 x (by simp only [List.dropLast_cons_cons, List.mem_cons]; exact .inr hx)) hss
      show Star (Lang setStep) (p.text ++ ',' :: commaJoin ((q :: qs).map Part.text))
      have h2p : p.isOnFrom = false := h2 p (by simp)
      have h1p : p.isUpTo = false := h1 p (by simp)
      cases p with
      | one x =>
        have := star_append (step_comma (hsp x (by simp [Part.dates]))) hr
        simpa [Part.text] using this
      | pair a b =>
        have := star_append (step_dots (hsp a (by simp [Part.dates]))) (star_append (step_comma (hsp b (by simp [Part.dates]))) hr)
        simpa [Part.text] using this
      | upTo x => cases h1p
      | onFrom x => cases h2p

theorem plus_of_star {P : Re} {w : Str} (h : Star (Lang P) w) (hw : w ≠ []) : Lang (.plus P) w := by
  cases h with
  | nil => exact absurd rfl hw
  | cons u v hu hn hv => exact ⟨u, v, rfl, hu, hv⟩

theorem part_ne_nil (p : Part) : p.text ≠ [] := by
  have hn : ∀ x : Date0, x.text ≠ [] := date0_ne_nil
  cases p <;> simp [Part.text, hn]

theorem commaJoin_ne_nil {ps : List Part} (h : ps ≠ []) : commaJoin (ps.map Part.text) ≠ [] := by
  cases ps with
  | nil => exact absurd rfl h
  | cons p ps =>
    cases ps with
    | nil => exact part_ne_nil p
    | cons q qs => simp [commaJoin, part_ne_nil]

theorem lang_parts {ps : List Part} (h : SetOk ps) (hs : ∀ x ∈ members ps, Shape x) :
    Lang setBody (commaJoin (ps.map Part.text)) := by
  obtain ⟨h0, h1, h2⟩ := h
  cases ps with
  | nil => exact absurd rfl h0
  | cons p ps =>
    by_cases hp : p.isUpTo = true
    · cases p with
      | upTo x =>
        have h' : ∀ q ∈ Part.one x :: ps, q.isUpTo = false := by
          intro q hq
          rcases List.mem_cons.1 hq with rfl | hq
          · rfl
          · exact h1 q (by simpa using hq)
        have h2' : ∀ q ∈ (Part.one x :: ps).dropLast, q.isOnFrom = false := by
          intro q hq
          cases ps with
          | nil => cases hq
          | cons r rs =>
            simp only [List.dropLast_cons_cons, List.mem_cons] at hq
            rcases hq with rfl | hq
            · rfl
            · exact h2 q (by simp only [List.dropLast_cons_cons, List.mem_cons]; exact .inr hq)
        have hs' : ∀ y ∈ members (Part.one x :: ps), Shape y := fun y hy => hs y hy
        have hst := plus_of_star (star_parts h' h2' hs') (commaJoin_ne_nil (by simp))
        have e : commaJoin ((Part.upTo x :: ps).map Part.text) = c! ".." ++ commaJoin ((Part.one x :: ps).map Part.text) := by
          cases ps <;> simp [commaJoin, Part.text]
        rw [e]
        exact ⟨_, _, rfl, .inr (lang_dots.2 rfl), _, [], (List.append_nil _).symm, hst, .inl rfl⟩
      | _ => cases hp
    · have h' : ∀ q ∈ p :: ps, q.isUpTo = false := by
        intro q hq
        rcases List.mem_cons.1 hq with rfl | hq
        · simpa using hp
        · exact h1 q (by simpa using hq)
      exact ⟨[], _, rfl, .inl rfl, _, [], (List.append_nil _).symm,
        plus_of_star (star_parts h' h2 hs) (commaJoin_ne_nil (by simp)), .inl rfl⟩

theorem lang_set {o c : Char} (hb : Brackets o c) {ps : List Part} (h : SetOk ps) (hs : ∀ x ∈ members ps, Shape x) :
    Lang (Rx.setRepresentations 1) (setText o c ps) := by
  refine ⟨[o], _, rfl, ?_, _, [c], rfl, lang_parts h hs, ⟨c, rfl, ?_⟩⟩
  · rcases hb.1 with rfl | rfl
    · exact .inl (lang_lit.2 rfl)
    · exact .inr (lang_lit.2 rfl)
  · rcases hb.2 with rfl | rfl <;> decide

theorem parse_set {o c : Char} (hb : Brackets o c) {ps : List Part} (h : SetOk ps) (hs : ∀ x ∈ members ps, Shape x) :
    parseString (setText o c ps) = (do
      let sp ← L2.setSpan (sortStrings ((members ps).map Date0.text)) (ps.any Part.isUpTo) (ps.any Part.isOnFrom) (setFlag o)
      .ok (mkEDTF sp (setText o c ps) 2 L2.SET_REPRESENTATIONS)) := by
  have hl := lang_set hb h hs
  have hset := isSet_iff.2 hl
  have ho : o ∈ setText o c ps := by simp [setText]
  have nc : ∀ r : Re, r.mayHave '[' = false → r.mayHave '{' = false → ¬ Lang r (setText o c ps) := by
    intro r h1 h2
    rcases hb.1 with rfl | rfl
    · exact not_lang_of_char h1 ho
    · exact not_lang_of_char h2 ho
  have l0 : L0.isLevel0 (setText o c ps) = false := by
    rcases hb.1 with rfl | rfl
    · exact not_level0_char ho (by decide)
    · exact not_level0_char ho (by decide)
  have l1 : L1.isLevel1 (setText o c ps) = false := by
    rcases hb.1 with rfl | rfl
    · exact not_level1_char ho (by decide)
    · exact not_level1_char ho (by decide)
  have e1 : L2.isExponentialYear (setText o c ps) = false := by
    rw [← Bool.not_eq_true, isExponential_iff]; exact nc _ (by decide) (by decide)
  have e2 : L2.isSignificantDigits (setText o c ps) = false := by
    rw [← Bool.not_eq_true, isSig_iff]; exact nc _ (by decide) (by decide)
  have e3 : L2.isSubYearGrouping (setText o c ps) = false := by
    rw [← Bool.not_eq_true, isSubYear_iff]; exact nc _ (by decide) (by decide)
  rw [parse_level2 l0 l1 (isLevel2_of (.inr (.inr (.inr (.inl hset)))))]
  unfold L2.parseString
  rw [e1, e2, e3, hset]
  simp only [Bool.false_eq_true, if_false, if_true]
  unfold L2.parseSetRepresentations
  have hsome : (Rx.SetRepresentations.submatch (setText o c ps)).isSome = true := by
    rw [isSome_submatch]; exact hset
  obtain ⟨m, hm⟩ := Option.isSome_iff_exists.1 hsome
  obtain ⟨b, b', -, -, g1, g2, -⟩ := set_caps hm
  rw [hm]
  simp only
  unfold setText at g2
  injection g2 with g2 g3
  have g4 := (List.append_inj' g3 rfl).1
  rw [g1, ← g2, ← g4]
  have hk : L2.setKind (setText o c ps) [o] = .ok (setFlag o) := by
    rcases hb.1 with rfl | rfl <;> rfl
  have hsplit : splitChar ',' (commaJoin (ps.map Part.text)) = ps.map Part.text :=
    splitChar_commaJoin (by simpa using h.1) (by
      intro x hx
      obtain ⟨p, -, rfl⟩ := List.mem_map.1 hx
      exact part_comma p)
  rw [hk, hsplit, collect_parts, Res.ok_bind, Res.ok_bind]
  simp only [List.nil_append, Bool.false_or]
  rw [if_neg]
  rw [length_sortStrings, List.length_map]
  obtain ⟨p, ps', rfl⟩ := List.exists_cons_of_ne_nil h.1
  cases p <;> simp [members, Part.dates]

end EDTF
