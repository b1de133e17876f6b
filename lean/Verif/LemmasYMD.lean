/- The date pattern PATTERN_YMD_X and its components: which strings match it
and what the groups are. -/
import Verif.LemmasRe
import Verif.LemmasTime
namespace EDTF
open Spec

/-! ### Membership in runs -/

def Re.noGrp : Re → Bool
  | .grp _ _ => false
  | .cat a b => a.noGrp && b.noGrp
  | .alt a b => a.noGrp && b.noGrp
  | .opt a => a.noGrp
  | .star a => a.noGrp
  | .plus a => a.noGrp
  | _ => true

theorem capOk_noGrp (r : Re) (h : r.noGrp = true) (i : Nat) (x : Str) : ¬ CapOk r i x := by
  induction r with
  | cat a b iha ihb =>
    simp only [Re.noGrp, Bool.and_eq_true] at h
    rintro (k | k)
    · exact iha h.1 k
    · exact ihb h.2 k
  | alt a b iha ihb =>
    simp only [Re.noGrp, Bool.and_eq_true] at h
    rintro (k | k)
    · exact iha h.1 k
    · exact ihb h.2 k
  | opt a iha => exact iha h
  | star a iha => exact iha h
  | plus a iha => exact iha h
  | grp i a => simp [Re.noGrp] at h
  | eps => exact id
  | cls => exact id
  | bos => exact id
  | eos => exact id

theorem run_plain {r : Re} (hr : r.noGrp = true) {st st' : St} (h : st' ∈ r.run st) :
    ∃ w, st.rest = w ++ st'.rest ∧ Lang r w ∧ st'.caps = st.caps := by
  obtain ⟨w, e, l, cs, d, k⟩ := run_sound r st st' h
  refine ⟨w, e, l, ?_⟩
  cases cs with
  | nil => simpa using d
  | cons p ps => exact absurd (k p (by simp)) (capOk_noGrp r hr _ _)

theorem run_grp {r : Re} (hr : r.noGrp = true) {i : Nat} {st st' : St} (h : st' ∈ (Re.grp i r).run st) :
    ∃ w, st.rest = w ++ st'.rest ∧ Lang r w ∧ st'.caps = (i, w) :: st.caps := by
  simp only [Re.run, List.mem_map] at h
  obtain ⟨s1, h1, h2⟩ := h
  obtain ⟨w, e, l, c⟩ := run_plain hr h1
  subst h2
  exact ⟨w, e, l, by simp [c, e]⟩

theorem mem_cat {a b : Re} {st st'' : St} : st'' ∈ (Re.cat a b).run st ↔ ∃ st' ∈ a.run st, st'' ∈ b.run st' := by
  simp only [Re.run, List.mem_flatMap]

theorem mem_alt {a b : Re} {st st' : St} : st' ∈ (Re.alt a b).run st ↔ st' ∈ a.run st ∨ st' ∈ b.run st := by
  simp only [Re.run, List.mem_append]

theorem mem_opt {a : Re} {st st' : St} : st' ∈ (Re.opt a).run st ↔ st' ∈ a.run st ∨ st' = st := by
  simp only [Re.run, List.mem_append, List.mem_singleton]

theorem lang_cat {a b : Re} {w : Str} : Lang (Re.cat a b) w ↔ ∃ u v, w = u ++ v ∧ Lang a u ∧ Lang b v := Iff.rfl
theorem lang_alt {a b : Re} {w : Str} : Lang (Re.alt a b) w ↔ Lang a w ∨ Lang b w := Iff.rfl
theorem lang_opt {a : Re} {w : Str} : Lang (Re.opt a) w ↔ w = [] ∨ Lang a w := Iff.rfl
theorem lang_grp {i : Nat} {a : Re} {w : Str} : Lang (Re.grp i a) w ↔ Lang a w := Iff.rfl
theorem lang_cls {f : Bool} {rs : List (Char × Char)} {w : Str} :
    Lang (Re.cls f rs) w ↔ ∃ c, w = [c] ∧ clsHas f rs c = true := Iff.rfl

/-! ### Characters -/

/-- A digit or X. -/
def isDX (c : Char) : Bool := isDig c || c == 'X'
/-- A qualifier character. -/
def isQ (c : Char) : Bool := c == '?' || c == '~' || c == '%'

theorem inR_single (c a : Char) : inR c (a, a) = (c == a) := by
  rw [Bool.eq_iff_iff]
  simp only [inR, Bool.and_eq_true, Nat.ble_eq, beq_iff_eq]
  constructor
  · intro h; exact char_of_toNat (by omega)
  · rintro rfl; omega

theorem inR_dig (c : Char) : inR c ('0', '9') = isDig c := by
  simp only [inR, isDig]; rfl

theorem clsHas_digit (c : Char) : clsHas false [('0', '9')] c = isDig c := by
  simp [clsHas, inR_dig]

theorem clsHas_digX (c : Char) : clsHas false [('0', '9'), ('X', 'X')] c = isDX c := by
  simp [clsHas, inR_dig, inR_single, isDX]

theorem clsHas_qual (c : Char) : clsHas false [('?', '?'), ('~', '~'), ('%', '%')] c = isQ c := by
  simp only [clsHas, Bool.false_eq_true, if_false, List.any_cons, List.any_nil, inR_single, Bool.or_false, isQ,
    Bool.or_assoc]

theorem lang_lit {c : Char} {w : Str} : Lang (Rx.lit c) w ↔ w = [c] := by
  simp only [Rx.lit, lang_cls, clsHas, Bool.false_eq_true, if_false, List.any_cons, List.any_nil, Bool.or_false,
    inR_single, beq_iff_eq]
  constructor
  · rintro ⟨c', rfl, rfl⟩; rfl
  · rintro rfl; exact ⟨c, rfl, rfl⟩

theorem lang_digit {w : Str} : Lang Rx.digit w ↔ ∃ c, w = [c] ∧ isDig c = true := by
  simp only [Rx.digit, lang_cls, clsHas_digit]

theorem lang_digX {w : Str} : Lang Rx.digX w ↔ ∃ c, w = [c] ∧ isDX c = true := by
  simp only [Rx.digX, lang_cls, clsHas_digX]

theorem lang_qual {w : Str} : Lang Rx.qual w ↔ ∃ c, w = [c] ∧ isQ c = true := by
  simp only [Rx.qual, lang_cls, clsHas_qual]

theorem lang_rep4 {r : Re} {P : Char → Prop} (h : ∀ w, Lang r w ↔ ∃ c, w = [c] ∧ P c) {w : Str} :
    Lang (Re.rep r 4) w ↔ ∃ a b c d, w = [a, b, c, d] ∧ P a ∧ P b ∧ P c ∧ P d := by
  simp only [Re.rep, lang_cat, h]
  constructor
  · rintro ⟨_, _, rfl, ⟨a, rfl, ha⟩, _, _, rfl, ⟨b, rfl, hb⟩, _, _, rfl, ⟨c, rfl, hc⟩, ⟨d, rfl, hd⟩⟩
    exact ⟨a, b, c, d, rfl, ha, hb, hc, hd⟩
  · rintro ⟨a, b, c, d, rfl, ha, hb, hc, hd⟩
    exact ⟨[a], [b, c, d], rfl, ⟨a, rfl, ha⟩, [b], [c, d], rfl, ⟨b, rfl, hb⟩, [c], [d], rfl, ⟨c, rfl, hc⟩, ⟨d, rfl, hd⟩⟩

theorem lang_rep2 {r : Re} {P : Char → Prop} (h : ∀ w, Lang r w ↔ ∃ c, w = [c] ∧ P c) {w : Str} :
    Lang (Re.rep r 2) w ↔ ∃ a b, w = [a, b] ∧ P a ∧ P b := by
  simp only [Re.rep, lang_cat, h]
  constructor
  · rintro ⟨_, _, rfl, ⟨a, rfl, ha⟩, ⟨b, rfl, hb⟩⟩
    exact ⟨a, b, rfl, ha, hb⟩
  · rintro ⟨a, b, rfl, ha, hb⟩
    exact ⟨[a], [b], rfl, ⟨a, rfl, ha⟩, ⟨b, rfl, hb⟩⟩

/-! ### The components -/

/-- Optional minus sign. -/
def sgn (neg : Bool) (s : Str) : Str := if neg then '-' :: s else s

theorem lang_year4 {w : Str} : Lang Rx.year4 w ↔
    ∃ neg a b c d, w = sgn neg [a, b, c, d] ∧ isDig a ∧ isDig b ∧ isDig c ∧ isDig d := by
  simp only [Rx.year4, lang_cat, lang_opt, lang_lit, lang_rep4 (fun w => lang_digit (w := w))]
  constructor
  · rintro ⟨u, v, rfl, rfl | rfl, a, b, c, d, rfl, h⟩
    · exact ⟨false, a, b, c, d, rfl, h⟩
    · exact ⟨true, a, b, c, d, rfl, h⟩
  · rintro ⟨neg, a, b, c, d, rfl, h⟩
    cases neg
    · exact ⟨[], _, rfl, Or.inl rfl, a, b, c, d, rfl, h⟩
    · exact ⟨['-'], _, rfl, Or.inr rfl, a, b, c, d, rfl, h⟩

theorem lang_yearX {w : Str} : Lang Rx.yearX w ↔
    ∃ neg a b c d, w = sgn neg [a, b, c, d] ∧ isDX a ∧ isDX b ∧ isDX c ∧ isDX d := by
  simp only [Rx.yearX, lang_cat, lang_opt, lang_lit, lang_rep4 (fun w => lang_digX (w := w))]
  constructor
  · rintro ⟨u, v, rfl, rfl | rfl, a, b, c, d, rfl, h⟩
    · exact ⟨false, a, b, c, d, rfl, h⟩
    · exact ⟨true, a, b, c, d, rfl, h⟩
  · rintro ⟨neg, a, b, c, d, rfl, h⟩
    cases neg
    · exact ⟨[], _, rfl, Or.inl rfl, a, b, c, d, rfl, h⟩
    · exact ⟨['-'], _, rfl, Or.inr rfl, a, b, c, d, rfl, h⟩

theorem lang_two {r1 r2 : List (Char × Char)} {w : Str} :
    Lang (Re.cat (.cls false r1) (.cls false r2)) w ↔
      ∃ a b, w = [a, b] ∧ clsHas false r1 a = true ∧ clsHas false r2 b = true := by
  simp only [lang_cat, lang_cls]
  constructor
  · rintro ⟨_, _, rfl, ⟨a, rfl, ha⟩, ⟨b, rfl, hb⟩⟩; exact ⟨a, b, rfl, ha, hb⟩
  · rintro ⟨a, b, rfl, ha, hb⟩; exact ⟨[a], [b], rfl, ⟨a, rfl, ha⟩, ⟨b, rfl, hb⟩⟩

theorem clsHas_DX_of_sub {rs : List (Char × Char)} (h : rs.all (fun p => (Nat.ble 48 p.1.toNat && Nat.ble p.2.toNat 57)
    || (p.1 == 'X' && p.2 == 'X')) = true) {c : Char} (hc : clsHas false rs c = true) : isDX c = true := by
  simp only [clsHas, Bool.false_eq_true, if_false, List.any_eq_true] at hc
  obtain ⟨p, hp, hi⟩ := hc
  have := List.all_eq_true.1 h p hp
  simp only [Bool.or_eq_true, Bool.and_eq_true, Nat.ble_eq, beq_iff_eq] at this
  simp only [isDX, Bool.or_eq_true, beq_iff_eq]
  rcases this with h | ⟨h1, h2⟩
  · left
    simp only [inR, Bool.and_eq_true, Nat.ble_eq] at hi
    simp only [isDig, Bool.and_eq_true, Nat.ble_eq]; omega
  · right
    obtain ⟨p1, p2⟩ := p
    simp only at h1 h2; subst h1; subst h2
    rw [inR_single] at hi; simpa using hi

/-- A month or day pattern consists of two digit-or-X characters. -/
theorem lang_monthX_DX {w : Str} (h : Lang Rx.monthX w) : ∃ a b, w = [a, b] ∧ isDX a = true ∧ isDX b = true := by
  rcases h with h | h
  · obtain ⟨a, b, rfl, ha, hb⟩ := lang_two.1 h
    exact ⟨a, b, rfl, clsHas_DX_of_sub (by decide) ha, clsHas_DX_of_sub (by decide) hb⟩
  · obtain ⟨a, b, rfl, ha, hb⟩ := lang_two.1 h
    exact ⟨a, b, rfl, clsHas_DX_of_sub (by decide) ha, clsHas_DX_of_sub (by decide) hb⟩

theorem lang_dayX_DX {w : Str} (h : Lang Rx.dayX w) : ∃ a b, w = [a, b] ∧ isDX a = true ∧ isDX b = true := by
  rcases h with h | h
  · obtain ⟨a, b, rfl, ha, hb⟩ := lang_two.1 h
    exact ⟨a, b, rfl, clsHas_DX_of_sub (by decide) ha, clsHas_DX_of_sub (by decide) hb⟩
  · obtain ⟨a, b, rfl, ha, hb⟩ := lang_two.1 h
    exact ⟨a, b, rfl, clsHas_DX_of_sub (by decide) ha, clsHas_DX_of_sub (by decide) hb⟩

theorem isDX_notQ {c : Char} (h : isDX c = true) : isQ c = false := by
  simp only [isDX, Bool.or_eq_true, beq_iff_eq] at h
  rcases h with h | rfl
  · have h1 := isDig_ne h (x := '?') (by decide)
    have h2 := isDig_ne h (x := '~') (by decide)
    have h3 := isDig_ne h (x := '%') (by decide)
    simp [isQ, h1, h2, h3]
  · decide

theorem isDX_ne_dash {c : Char} (h : isDX c = true) : c ≠ '-' := by
  simp only [isDX, Bool.or_eq_true, beq_iff_eq] at h
  rcases h with h | rfl
  · exact isDig_ne h (by decide)
  · decide

theorem isDX_ne_slash {c : Char} (h : isDX c = true) : c ≠ '/' := by
  simp only [isDX, Bool.or_eq_true, beq_iff_eq] at h
  rcases h with h | rfl
  · exact isDig_ne h (by decide)
  · decide

theorem isQ_ne {c : Char} (h : isQ c = true) : c ≠ '-' ∧ c ≠ '/' ∧ isDX c = false := by
  simp only [isQ, Bool.or_eq_true, beq_iff_eq] at h
  rcases h with (rfl | rfl) | rfl <;> decide

open Spec (Deco)

theorem deco_ok_left (q : Char) : (Deco.left q).ok = isQ q := rfl
theorem deco_ok_right (q : Char) : (Deco.right q).ok = isQ q := rfl

def _root_.EDTF.Spec.Deco.qual : Deco → Option Qualifier
  | .none => Option.none
  | .left q => some ⟨[q], false⟩
  | .right q => some ⟨[q], true⟩

/-- The body of one of the groups of PATTERN_YMD_X. -/
def decoRe (r : Re) : Re := (.cat (.opt Rx.qual) r) ∥ (.cat r (.opt Rx.qual))

theorem lang_decoRe {r : Re} {w : Str} : Lang (decoRe r) w ↔ ∃ (x : Str) (q : Deco), q.ok = true ∧ Lang r x ∧ w = q.text x := by
  simp only [decoRe, lang_alt, lang_cat, lang_opt, lang_qual]
  constructor
  · rintro (⟨u, v, rfl, rfl | ⟨q, rfl, hq⟩, hv⟩ | ⟨u, v, rfl, hu, rfl | ⟨q, rfl, hq⟩⟩)
    · exact ⟨v, .none, rfl, hv, rfl⟩
    · exact ⟨v, .left q, hq, hv, rfl⟩
    · exact ⟨u, .none, rfl, hu, by simp [Deco.text]⟩
    · exact ⟨u, .right q, hq, hu, rfl⟩
  · rintro ⟨x, q, hq, hx, rfl⟩
    cases q with
    | none => exact Or.inl ⟨[], x, rfl, Or.inl rfl, hx⟩
    | left q => exact Or.inl ⟨[q], x, rfl, Or.inr ⟨q, rfl, hq⟩, hx⟩
    | right q => exact Or.inr ⟨x, [q], rfl, hx, Or.inr ⟨q, rfl, hq⟩⟩

/-- The three kinds of component text. -/
def isComp (x : Str) : Prop := Lang (Rx.yearX ∥ Rx.monthX ∥ Rx.dayX) x

theorem isComp_shape {x : Str} (h : isComp x) :
    ∃ neg body, x = sgn neg body ∧ body.all isDX = true ∧ (body.length = 4 ∨ (neg = false ∧ body.length = 2)) := by
  rcases h with h | h | h
  · obtain ⟨neg, a, b, c, d, rfl, ha, hb, hc, hd⟩ := lang_yearX.1 h
    exact ⟨neg, [a, b, c, d], rfl, by simp [ha, hb, hc, hd], Or.inl rfl⟩
  · obtain ⟨a, b, rfl, ha, hb⟩ := lang_monthX_DX h
    exact ⟨false, [a, b], rfl, by simp [ha, hb], Or.inr ⟨rfl, rfl⟩⟩
  · obtain ⟨a, b, rfl, ha, hb⟩ := lang_dayX_DX h
    exact ⟨false, [a, b], rfl, by simp [ha, hb], Or.inr ⟨rfl, rfl⟩⟩

theorem isComp_notQ {x : Str} (h : isComp x) : ∀ c ∈ x, isQ c = false := by
  obtain ⟨neg, body, rfl, hb, -⟩ := isComp_shape h
  intro c hc
  have : ∀ c ∈ body, isQ c = false := fun c hc => isDX_notQ (List.all_eq_true.1 hb c hc)
  cases neg
  · exact this c hc
  · rcases List.mem_cons.1 hc with rfl | hc
    · decide
    · exact this c hc

theorem isComp_ne_nil {x : Str} (h : isComp x) : x ≠ [] := by
  obtain ⟨neg, body, rfl, -, hl⟩ := isComp_shape h
  have : body ≠ [] := by rintro rfl; simp at hl
  cases neg <;> simp [sgn, this]

theorem free_qi : (Re.cat (.opt (.grp 1 Rx.qual)) (Rx.dateX 2)).free = true := by decide
theorem free_qg : (Re.cat (Rx.dateX 1) (.opt (.grp 2 Rx.qual))).free = true := by decide

/-- Groups of QualifiedIndividual on `x` or `q ++ x`. -/
theorem qi_caps {s : Str} {m : Nat → Str} (h : Rx.QualifiedIndividual.submatch s = some m) :
    isComp (m 2) ∧ ((m 1 = [] ∧ s = m 2) ∨ ∃ q, isQ q = true ∧ m 1 = [q] ∧ s = q :: m 2) := by
  obtain ⟨st', h1, h2, rfl⟩ := submatch_anch_some h
  obtain ⟨s1, h3, h4⟩ := mem_cat.1 h1
  obtain ⟨w, e, l, c⟩ := run_grp (by decide) h4
  rw [h2, List.append_nil] at e
  rcases mem_opt.1 h3 with h3 | h3
  · obtain ⟨u, e', l', c'⟩ := run_grp (by decide) h3
    obtain ⟨q, rfl, hq⟩ := lang_qual.1 l'
    simp only at e' c'
    have e1 : capOf st'.caps 1 = [q] := by rw [c, c']; rfl
    have e2 : capOf st'.caps 2 = w := by rw [c, c']; rfl
    rw [e1, e2]
    exact ⟨l, Or.inr ⟨q, hq, rfl, by rw [e', e]; rfl⟩⟩
  · subst h3
    have e1 : capOf st'.caps 1 = [] := by rw [c]; rfl
    have e2 : capOf st'.caps 2 = w := by rw [c]; rfl
    rw [e1, e2]
    exact ⟨l, Or.inl ⟨rfl, e⟩⟩

theorem qg_caps {s : Str} {m : Nat → Str} (h : Rx.QualifiedGroup.submatch s = some m) :
    isComp (m 1) ∧ ((m 2 = [] ∧ s = m 1) ∨ ∃ q, isQ q = true ∧ m 2 = [q] ∧ s = m 1 ++ [q]) := by
  obtain ⟨st', h1, h2, rfl⟩ := submatch_anch_some h
  obtain ⟨s1, h3, h4⟩ := mem_cat.1 h1
  obtain ⟨w, e, l, c⟩ := run_grp (by decide) h3
  rcases mem_opt.1 h4 with h4 | h4
  · obtain ⟨u, e', l', c'⟩ := run_grp (by decide) h4
    obtain ⟨q, rfl, hq⟩ := lang_qual.1 l'
    rw [h2, List.append_nil] at e'
    have e1 : capOf st'.caps 2 = [q] := by rw [c']; rfl
    have e2 : capOf st'.caps 1 = w := by rw [c', c]; rfl
    rw [e1, e2]
    simp only at e
    exact ⟨l, Or.inr ⟨q, hq, rfl, by rw [e, e']⟩⟩
  · subst h4
    have e1 : capOf st'.caps 2 = [] := by rw [c]; rfl
    have e2 : capOf st'.caps 1 = w := by rw [c]; rfl
    rw [e1, e2]
    rw [h2, List.append_nil] at e
    exact ⟨l, Or.inl ⟨rfl, e⟩⟩

/-- common/range.go:501-538 on a component with or without a qualifier. -/
theorem parseYMDComponent_deco (q : Deco) (hq : q.ok = true) {x : Str} (hx : isComp x) :
    parseYMDComponent (q.text x) = .ok (x, q.qual) := by
  have hnq := isComp_notQ hx
  have hn := isComp_ne_nil hx
  unfold parseYMDComponent
  cases hi : Rx.QualifiedIndividual.submatch (q.text x) with
  | some m =>
    obtain ⟨h2, h⟩ := qi_caps hi
    simp only
    have hnq2 := isComp_notQ h2
    rcases h with ⟨e1, e2⟩ | ⟨c, hc, e1, e2⟩
    · rw [e1]
      cases q with
      | none => simp only [Deco.text] at e2; rw [← e2]; simp [Deco.qual]
      | left c =>
        simp only [Deco.text] at e2
        have := hnq2 c (by rw [← e2]; simp)
        rw [show isQ c = true from hq] at this; cases this
      | right c =>
        simp only [Deco.text] at e2
        have := hnq2 c (by rw [← e2]; simp)
        rw [show isQ c = true from hq] at this; cases this
    · rw [e1]
      cases q with
      | none =>
        simp only [Deco.text] at e2
        have := hnq c (by rw [e2]; simp)
        rw [hc] at this; cases this
      | left d =>
        simp only [Deco.text, List.cons.injEq] at e2
        obtain ⟨rfl, e2⟩ := e2
        rw [← e2]; simp [Deco.qual]
      | right d =>
        simp only [Deco.text] at e2
        cases x with
        | nil => exact absurd rfl hn
        | cons a as =>
          simp only [List.cons_append, List.cons.injEq] at e2
          have := hnq a (by simp)
          rw [e2.1, hc] at this; cases this
  | none =>
    have hni := (submatch_anch_none _ free_qi _).1 hi
    cases q with
    | none =>
      exact absurd ⟨[], x, rfl, Or.inl rfl, hx⟩ hni
    | left c =>
      exact absurd ⟨[c], x, rfl, Or.inr (lang_qual.2 ⟨c, rfl, hq⟩), hx⟩ hni
    | right c =>
      simp only [Deco.text] at hi ⊢
      cases hg : Rx.QualifiedGroup.submatch (x ++ [c]) with
      | none =>
        have hng := (submatch_anch_none _ free_qg _).1 hg
        exact absurd ⟨x, [c], rfl, hx, Or.inr (lang_qual.2 ⟨c, rfl, hq⟩)⟩ hng
      | some m =>
        obtain ⟨h1, h⟩ := qg_caps hg
        simp only
        rcases h with ⟨e1, e2⟩ | ⟨d, hd, e1, e2⟩
        · have := isComp_notQ h1 c (by rw [← e2]; simp)
          rw [show isQ c = true from hq] at this; cases this
        · rw [e1]
          obtain ⟨e3, e4⟩ := List.append_inj' e2 rfl
          simp only [List.cons.injEq, and_true] at e4
          subst e4
          rw [← e3]; simp [Deco.qual]

/-! ### The whole pattern -/

/-- One component: its text and its qualifier. -/
structure Comp where
  x : Str
  q : Deco
  deriving DecidableEq, Repr

def Comp.text (c : Comp) : Str := c.q.text c.x

def Comp.okFor (c : Comp) (r : Re) : Prop := c.q.ok = true ∧ Lang r c.x

/-- A date as PATTERN_YMD_X reads it. -/
inductive YMDForm where
  | y (a : Comp)
  | ym (a b : Comp)
  | ymd (a b c : Comp)
  deriving DecidableEq, Repr

def YMDForm.ok : YMDForm → Prop
  | .y a => a.okFor Rx.yearX
  | .ym a b => a.okFor Rx.yearX ∧ b.okFor Rx.monthX
  | .ymd a b c => a.okFor Rx.yearX ∧ b.okFor Rx.monthX ∧ c.okFor Rx.dayX

def YMDForm.text : YMDForm → Str
  | .y a => a.text
  | .ym a b => a.text ++ '-' :: b.text
  | .ymd a b c => a.text ++ '-' :: (b.text ++ '-' :: c.text)

/-- The three group texts. -/
def YMDForm.caps : YMDForm → Str × Str × Str
  | .y a => (a.text, [], [])
  | .ym a b => (a.text, b.text, [])
  | .ymd a b c => (a.text, b.text, c.text)

def ymdBody : Re :=
  Rx.yyyy 1 ⬝ .opt (Rx.lit '-' ⬝ Rx.mm 2 ⬝ .opt (Rx.lit '-' ⬝ Rx.dd 3))

/-- Dashes of a decorated year are at position 0 or 1. -/
theorem year_dash {a : Comp} (h : a.okFor Rx.yearX) : 4 ≤ a.text.length ∧ '-' ∉ a.text.drop 2 := by
  obtain ⟨x, q⟩ := a
  obtain ⟨hq, hx⟩ := h
  obtain ⟨neg, a, b, c, d, rfl, ha, hb, hc, hd⟩ := lang_yearX.1 hx
  have ha := (isDX_ne_dash ha).symm
  have hb := (isDX_ne_dash hb).symm
  have hc := (isDX_ne_dash hc).symm
  have hd := (isDX_ne_dash hd).symm
  cases q with
  | none => cases neg <;> simp [Comp.text, Deco.text, sgn, hb, hc, hd]
  | left q => cases neg <;> simp [Comp.text, Deco.text, sgn, ha, hb, hc, hd]
  | right q =>
    have hq' : '-' ≠ q := (isQ_ne hq).1.symm
    cases neg <;> simp [Comp.text, Deco.text, sgn, ha, hb, hc, hd, hq']

theorem comp2_dash {a : Comp} {r : Re} (hr : ∀ w, Lang r w → ∃ a b, w = [a, b] ∧ isDX a = true ∧ isDX b = true)
    (h : a.okFor r) : '-' ∉ a.text ∧ 2 ≤ a.text.length := by
  obtain ⟨x, q⟩ := a
  obtain ⟨hq, hx⟩ := h
  obtain ⟨a, b, rfl, ha, hb⟩ := hr _ hx
  have ha := (isDX_ne_dash ha).symm
  have hb := (isDX_ne_dash hb).symm
  cases q with
  | none => simp [Comp.text, Deco.text, ha, hb]
  | left q => have hq := (isQ_ne hq).1.symm; simp [Comp.text, Deco.text, ha, hb, hq]
  | right q => have hq := (isQ_ne hq).1.symm; simp [Comp.text, Deco.text, ha, hb, hq]

/-- Either nothing follows, or a dash does. -/
def DashTail (t : Str) : Prop := t = [] ∨ ∃ u, t = '-' :: u

theorem split_year {a a' : Comp} (h : a.okFor Rx.yearX) (h' : a'.okFor Rx.yearX) {t t' : Str}
    (ht : DashTail t) (ht' : DashTail t') (e : a.text ++ t = a'.text ++ t') : a.text = a'.text ∧ t = t' := by
  have aux : ∀ {a a' : Comp}, a.okFor Rx.yearX → a'.okFor Rx.yearX → ∀ {t t' : Str}, DashTail t' →
      a.text ++ t = a'.text ++ t' → a'.text.length < a.text.length → False := by
    intro a a' h h' t t' ht' e hl
    obtain ⟨k1, k2⟩ := year_dash h
    obtain ⟨k3, -⟩ := year_dash h'
    rcases List.append_eq_append_iff.1 e with ⟨z, e1, e2⟩ | ⟨z, e1, e2⟩
    · rw [e1] at hl; simp at hl; omega
    · have hz : z ≠ [] := by rintro rfl; rw [e1] at hl; simp at hl
      rcases ht' with rfl | ⟨u, rfl⟩
      · have := congrArg List.length e2
        cases z with
        | nil => exact hz rfl
        | cons => simp at this
      · cases z with
        | nil => exact hz rfl
        | cons c cs =>
          simp only [List.cons_append, List.cons.injEq] at e2
          apply k2
          rw [e1, List.drop_append_of_le_length (by omega), ← e2.1]
          simp
  have hlen : a.text.length = a'.text.length := by
    rcases Nat.lt_trichotomy a.text.length a'.text.length with hl | hl | hl
    · exact (aux h' h ht e.symm hl).elim
    · exact hl
    · exact (aux h h' ht' e hl).elim
  exact List.append_inj e hlen

theorem split_dash {u u' t t' : Str} (hu : '-' ∉ u) (hu' : '-' ∉ u') (ht : DashTail t) (ht' : DashTail t')
    (e : u ++ t = u' ++ t') : u = u' ∧ t = t' := by
  have aux : ∀ {u u' t t' : Str}, '-' ∉ u → DashTail t' → u ++ t = u' ++ t' → u'.length < u.length → False := by
    intro u u' t t' hu ht' e hl
    rcases List.append_eq_append_iff.1 e with ⟨z, e1, e2⟩ | ⟨z, e1, e2⟩
    · rw [e1] at hl; simp at hl; omega
    · have hz : z ≠ [] := by rintro rfl; rw [e1] at hl; simp at hl
      rcases ht' with rfl | ⟨v, rfl⟩
      · cases z with
        | nil => exact hz rfl
        | cons => simp at e2
      · cases z with
        | nil => exact hz rfl
        | cons c cs =>
          simp only [List.cons_append, List.cons.injEq] at e2
          apply hu
          rw [e1, ← e2.1]; simp
  have hlen : u.length = u'.length := by
    rcases Nat.lt_trichotomy u.length u'.length with hl | hl | hl
    · exact (aux hu' ht e.symm hl).elim
    · exact hl
    · exact (aux hu ht' e hl).elim
  exact List.append_inj e hlen

theorem noGrp_decoY : (decoRe Rx.yearX).noGrp = true := by decide
theorem noGrp_decoM : (decoRe Rx.monthX).noGrp = true := by decide
theorem noGrp_decoD : (decoRe Rx.dayX).noGrp = true := by decide

theorem decoForm {r : Re} {w : Str} (h : Lang (decoRe r) w) : ∃ a : Comp, a.okFor r ∧ w = a.text := by
  obtain ⟨x, q, hq, hx, rfl⟩ := lang_decoRe.1 h
  exact ⟨⟨x, q⟩, ⟨hq, hx⟩, rfl⟩

theorem decoForm' {r : Re} {a : Comp} (h : a.okFor r) : Lang (decoRe r) a.text :=
  lang_decoRe.2 ⟨a.x, a.q, h.1, h.2, rfl⟩

/-- What the groups of a run over the body can be. -/
theorem ymdBody_run {b : Bool} {s : Str} {st' : St} (h : st' ∈ ymdBody.run ⟨b, s, []⟩) (he : st'.rest = []) :
    ∃ F : YMDForm, F.ok ∧ s = F.text ∧ capOf st'.caps 1 = F.caps.1 ∧ capOf st'.caps 2 = F.caps.2.1 ∧
      capOf st'.caps 3 = F.caps.2.2 := by
  obtain ⟨s1, h1, h2⟩ := mem_cat.1 h
  obtain ⟨y, ey, ly, cy⟩ := run_grp noGrp_decoY h1
  obtain ⟨ya, hya, rfl⟩ := decoForm ly
  simp only at ey cy
  rcases mem_opt.1 h2 with h2 | h2
  · obtain ⟨s2, h3, h4⟩ := mem_cat.1 h2
    obtain ⟨w2, e2, l2, c2⟩ := run_plain (by decide) h3
    have l2 := lang_lit.1 l2
    subst l2
    obtain ⟨s3, h5, h6⟩ := mem_cat.1 h4
    obtain ⟨mo, em, lm, cm⟩ := run_grp noGrp_decoM h5
    obtain ⟨ma, hma, rfl⟩ := decoForm lm
    rcases mem_opt.1 h6 with h6 | h6
    · obtain ⟨s4, h7, h8⟩ := mem_cat.1 h6
      obtain ⟨w4, e4, l4, c4⟩ := run_plain (by decide) h7
      have l4 := lang_lit.1 l4
      subst l4
      obtain ⟨da, ed, ld, cd⟩ := run_grp noGrp_decoD h8
      obtain ⟨dc, hdc, rfl⟩ := decoForm ld
      refine ⟨.ymd ya ma dc, ⟨hya, hma, hdc⟩, ?_, ?_, ?_, ?_⟩
      · rw [ey, e2, em, e4, ed, he]; simp [YMDForm.text]
      · rw [cd, c4, cm, c2, cy]; rfl
      · rw [cd, c4, cm, c2, cy]; rfl
      · rw [cd, c4, cm, c2, cy]; rfl
    · subst h6
      refine ⟨.ym ya ma, ⟨hya, hma⟩, ?_, ?_, ?_, ?_⟩
      · rw [ey, e2, em, he]; simp [YMDForm.text]
      · rw [cm, c2, cy]; rfl
      · rw [cm, c2, cy]; rfl
      · rw [cm, c2, cy]; rfl
  · subst h2
    refine ⟨.y ya, hya, ?_, ?_, ?_, ?_⟩
    · rw [ey, he]; simp [YMDForm.text]
    · rw [cy]; rfl
    · rw [cy]; rfl
    · rw [cy]; rfl

theorem ymdBody_lang {s : Str} : Lang ymdBody s ↔ ∃ F : YMDForm, F.ok ∧ s = F.text := by
  constructor
  · intro h
    obtain ⟨st', h1, h2⟩ := run_complete ymdBody (by decide) s true [] [] h
    rw [List.append_nil] at h1
    obtain ⟨F, a, b, -⟩ := ymdBody_run h1 h2
    exact ⟨F, a, b⟩
  · rintro ⟨F, hF, rfl⟩
    cases F with
    | y a => exact ⟨a.text, [], by simp [YMDForm.text], decoForm' hF, Or.inl rfl⟩
    | ym a b =>
      exact ⟨a.text, '-' :: b.text, rfl, decoForm' hF.1, Or.inr ⟨['-'], b.text, rfl, lang_lit.2 rfl,
        b.text, [], by simp, decoForm' hF.2, Or.inl rfl⟩⟩
    | ymd a b c =>
      exact ⟨a.text, '-' :: (b.text ++ '-' :: c.text), rfl, decoForm' hF.1, Or.inr ⟨['-'], b.text ++ '-' :: c.text, rfl,
        lang_lit.2 rfl, b.text, '-' :: c.text, rfl, decoForm' hF.2.1, Or.inr ⟨['-'], c.text, rfl, lang_lit.2 rfl,
        decoForm' hF.2.2⟩⟩⟩

/-- The tail after the year. -/
def YMDForm.tail : YMDForm → Str
  | .y _ => []
  | .ym _ b => '-' :: b.text
  | .ymd _ b c => '-' :: (b.text ++ '-' :: c.text)

def YMDForm.yc : YMDForm → Comp
  | .y a => a
  | .ym a _ => a
  | .ymd a _ _ => a

theorem YMDForm.text_eq (F : YMDForm) : F.text = F.yc.text ++ F.tail := by
  cases F <;> simp [YMDForm.text, YMDForm.yc, YMDForm.tail]

theorem YMDForm.tail_dash (F : YMDForm) : DashTail F.tail := by
  cases F with
  | y a => exact Or.inl rfl
  | ym a b => exact Or.inr ⟨_, rfl⟩
  | ymd a b c => exact Or.inr ⟨_, rfl⟩

theorem YMDForm.yc_ok {F : YMDForm} (h : F.ok) : F.yc.okFor Rx.yearX := by
  cases F with
  | y a => exact h
  | ym a b => exact h.1
  | ymd a b c => exact h.1

/-- The decomposition of a matching string is unique. -/
theorem ymdForm_unique {F G : YMDForm} (hF : F.ok) (hG : G.ok) (e : F.text = G.text) : F.caps = G.caps := by
  have e0 := e
  rw [F.text_eq, G.text_eq] at e0
  obtain ⟨e1, e2⟩ := split_year (YMDForm.yc_ok hF) (YMDForm.yc_ok hG) F.tail_dash G.tail_dash e0
  have nil : ∀ b : Comp, b.text = b.text ++ ([] : Str) := by intro b; simp
  have tl : ∀ c : Comp, DashTail ('-' :: c.text) := fun c => Or.inr ⟨_, rfl⟩
  have t0 : DashTail ([] : Str) := Or.inl rfl
  cases F with
  | y a =>
    cases G with
    | y a' => simp only [YMDForm.caps, YMDForm.yc] at *; rw [e1]
    | ym a' b' => simp [YMDForm.tail] at e2
    | ymd a' b' c' => simp [YMDForm.tail] at e2
  | ym a b =>
    have hb := comp2_dash (fun w => lang_monthX_DX) hF.2
    cases G with
    | y a' => simp [YMDForm.tail] at e2
    | ym a' b' =>
      simp only [YMDForm.tail, List.cons.injEq, true_and] at e2
      simp only [YMDForm.caps, YMDForm.yc] at *; rw [e1, e2]
    | ymd a' b' c' =>
      have hb' := comp2_dash (fun w => lang_monthX_DX) hG.2.1
      simp only [YMDForm.tail, List.cons.injEq, true_and] at e2
      rw [nil b] at e2
      have := (split_dash hb.1 hb'.1 t0 (tl c') e2).2
      simp at this
  | ymd a b c =>
    have hb := comp2_dash (fun w => lang_monthX_DX) hF.2.1
    cases G with
    | y a' => simp [YMDForm.tail] at e2
    | ym a' b' =>
      have hb' := comp2_dash (fun w => lang_monthX_DX) hG.2
      simp only [YMDForm.tail, List.cons.injEq, true_and] at e2
      rw [nil b'] at e2
      have := (split_dash hb.1 hb'.1 (tl c) t0 e2).2
      simp at this
    | ymd a' b' c' =>
      have hb' := comp2_dash (fun w => lang_monthX_DX) hG.2.1
      simp only [YMDForm.tail, List.cons.injEq, true_and] at e2
      obtain ⟨e3, e4⟩ := split_dash hb.1 hb'.1 (tl c) (tl c') e2
      simp only [List.cons.injEq, true_and] at e4
      simp only [YMDForm.caps, YMDForm.yc] at *; rw [e1, e3, e4]

/-- re.YMD (with its doubled anchors) reads the same strings as the body. -/
theorem ymd_run_eq (st : St) (h : st.beg = true) (st' : St) :
    st' ∈ (Re.cat (Re.bos ⬝ Rx.yyyy 1 ⬝ .opt (Rx.lit '-' ⬝ Rx.mm 2 ⬝ .opt (Rx.lit '-' ⬝ Rx.dd 3)) ⬝ .eos) .eos).run st ↔
      st' ∈ ymdBody.run st ∧ st'.rest = [] := by
  rw [run_eos_mem]
  constructor
  · rintro ⟨h1, h2⟩
    refine ⟨?_, h2⟩
    obtain ⟨s1, h3, h4⟩ := mem_cat.1 h1
    simp only [Re.run, h, if_true, List.mem_singleton] at h3
    subst h3
    obtain ⟨s2, h5, h6⟩ := mem_cat.1 h4
    obtain ⟨s3, h7, h8⟩ := mem_cat.1 h6
    have : st' = s3 := by
      simp only [Re.run] at h8
      split at h8 <;> simp at h8
      exact h8
    subst this
    exact mem_cat.2 ⟨s2, h5, h7⟩
  · rintro ⟨h1, h2⟩
    refine ⟨?_, h2⟩
    obtain ⟨s2, h5, h7⟩ := mem_cat.1 h1
    refine mem_cat.2 ⟨st, by simp [Re.run, h], mem_cat.2 ⟨s2, h5, mem_cat.2 ⟨st', h7, by simp [Re.run, h2]⟩⟩⟩

/-- What FindStringSubmatch with re.YMD returns. -/
theorem ymd_submatch_form {F : YMDForm} (hF : F.ok) :
    ∃ m, Rx.YMD.submatch F.text = some m ∧ m 1 = F.caps.1 ∧ m 2 = F.caps.2.1 ∧ m 3 = F.caps.2.2 := by
  obtain ⟨st1, k1, k2⟩ := run_complete ymdBody (by decide) F.text true [] [] (ymdBody_lang.2 ⟨F, hF, rfl⟩)
  rw [List.append_nil] at k1
  have hmem := (ymd_run_eq ⟨true, F.text, []⟩ rfl st1).2 ⟨k1, k2⟩
  unfold Re.submatch Rx.YMD Rx.anch
  rw [search_bos]
  cases hc : (Re.cat (Re.bos ⬝ Rx.yyyy 1 ⬝ .opt (Rx.lit '-' ⬝ Rx.mm 2 ⬝ .opt (Rx.lit '-' ⬝ Rx.dd 3)) ⬝ .eos) .eos).run
      ⟨true, F.text, []⟩ with
  | nil => rw [hc] at hmem; simp at hmem
  | cons st' rest =>
    have hst : st' ∈ ymdBody.run ⟨true, F.text, []⟩ ∧ st'.rest = [] :=
      (ymd_run_eq _ rfl _).1 (by rw [hc]; simp)
    obtain ⟨G, hG, e, c1, c2, c3⟩ := ymdBody_run hst.1 hst.2
    have := ymdForm_unique hF hG e
    refine ⟨capOf st'.caps, by simp, ?_, ?_, ?_⟩
    · rw [this]; exact c1
    · rw [this]; exact c2
    · rw [this]; exact c3

theorem ymd_submatch_none {s : Str} (h : ∀ F : YMDForm, F.ok → s ≠ F.text) : Rx.YMD.submatch s = none := by
  unfold Re.submatch Rx.YMD Rx.anch
  rw [search_bos]
  cases hc : (Re.cat (Re.bos ⬝ Rx.yyyy 1 ⬝ .opt (Rx.lit '-' ⬝ Rx.mm 2 ⬝ .opt (Rx.lit '-' ⬝ Rx.dd 3)) ⬝ .eos) .eos).run
      ⟨true, s, []⟩ with
  | nil => rfl
  | cons st' rest =>
    have hst : st' ∈ ymdBody.run ⟨true, s, []⟩ ∧ st'.rest = [] :=
      (ymd_run_eq _ rfl _).1 (by rw [hc]; simp)
    obtain ⟨G, hG, e, -⟩ := ymdBody_run hst.1 hst.2
    exact absurd e (h G hG)

theorem ymd_submatch_some {s : Str} {m : Nat → Str} (h : Rx.YMD.submatch s = some m) :
    ∃ F : YMDForm, F.ok ∧ s = F.text ∧ m 1 = F.caps.1 ∧ m 2 = F.caps.2.1 ∧ m 3 = F.caps.2.2 := by
  by_cases hc : ∃ F : YMDForm, F.ok ∧ s = F.text
  · obtain ⟨F, hF, rfl⟩ := hc
    obtain ⟨m', e, c⟩ := ymd_submatch_form hF
    rw [h] at e; injection e with e; subst e
    exact ⟨F, hF, rfl, c⟩
  · rw [ymd_submatch_none (fun F hF e => hc ⟨F, hF, e⟩)] at h
    cases h

end EDTF
