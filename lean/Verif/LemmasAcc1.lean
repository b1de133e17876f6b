/-
The accepted language, Level 1: the remaining features.
-/
import Verif.LemmasAcc
namespace EDTF
open Spec

theorem month_text {neg : Bool} {n m : Nat} {t : Str} : (⟨neg, n, .month m⟩ : Date0).text ++ t = yearStr neg n ++ '-' :: (pad2 m ++ t) := by
  simp [date0_text]

theorem day_text {neg : Bool} {n m d : Nat} {t : Str} : (⟨neg, n, .day m d⟩ : Date0).text ++ t = yearStr neg n ++ '-' :: (pad2 m ++ ('-' :: (pad2 d ++ t))) := by
  simp [date0_text]

/-- A month or a day with something after it. -/
theorem acc_after {x : Date0} (hy : x.year < 10000) (hs : Date0.shapeOk x) (ht : x.tail ≠ .none) {t : Str}
    (h0 : L0.isLevel0 (x.text ++ t) = false) (h1 : L1.isLevel1 (x.text ++ t) = true)
    (hm : AfterMonth x.neg t)
    (hd : ∀ d, 1 ≤ d → d ≤ 31 → AfterMonth x.neg ('-' :: (pad2 d ++ t))) {r : EDTFDate} (hp : parseString (x.text ++ t) = .ok r) : Accepted (x.text ++ t) := by
  obtain ⟨neg, n, tl⟩ := x
  cases tl with
  | none => exact absurd rfl ht
  | month m =>
    rw [month_text] at *
    exact .month neg n m hy hs.1 hs.2 ((acc_prefix hy hs.1 hs.2 h0 h1).1 ⟨r, hp⟩) t hm
  | day m d =>
    obtain ⟨m1, m2, d1, d2⟩ := hs
    rw [day_text] at *
    exact .month neg n m hy m1 m2 ((acc_prefix hy m1 m2 h0 h1).1 ⟨r, hp⟩) _ (hd d d1 d2)

theorem q_mem {q : Char} : q ∈ (c! "?~%") ↔ q = '?' ∨ q = '~' ∨ q = '%' := by simp

theorem lang_qualAlt {g : Nat} {v : Str} : Lang (Rx.qualAlt g '?' '~' '%') v ↔ ∃ q, q ∈ (c! "?~%") ∧ v = [q] := by
  constructor
  · intro h
    rcases lang_grp.1 h with h | h | h <;> exact ⟨_, by decide, lang_lit.1 h⟩
  · rintro ⟨q, hq, rfl⟩
    rcases q_mem.1 hq with rfl | rfl | rfl
    · exact Or.inl (lang_lit.2 rfl)
    · exact Or.inr (Or.inl (lang_lit.2 rfl))
    · exact Or.inr (Or.inr (lang_lit.2 rfl))

theorem acc_qualified {s : Str} (h0 : L0.isLevel0 s = false) (h1 : L1.isLevel1 s = true) (h : Lang (Rx.qualifiedDate 1) s) {r : EDTFDate}
    (hp : parseString s = .ok r) : Accepted s := by
  obtain ⟨u, v, rfl, hu, hv⟩ := lang_cat.1 h
  obtain ⟨x, hy, hs, rfl⟩ := lang_date.1 hu
  obtain ⟨q, hq, rfl⟩ := lang_qualAlt.1 hv
  by_cases ht : x.tail = .none
  · obtain ⟨neg, n, tl⟩ := x
    simp only at ht
    subst ht
    rw [date0_year]
    exact .qualifiedYear neg n hy q hq
  · exact acc_after hy hs ht h0 h1 (.qualifier _ q hq) (fun d d1 d2 => .dayQualifier _ d d1 d2 q hq) hp

theorem lang_optDots {g : Nat} {v : Str} : Lang (.opt (.grp g Rx.dots)) v ↔ v = [] ∨ v = c! ".." := by
  constructor
  · intro h
    rcases lang_opt.1 h with h | h
    · exact Or.inl h
    · obtain ⟨a, b, rfl, ha, hb⟩ := lang_cat.1 (lang_grp.1 h)
      rw [lang_lit] at ha hb
      subst ha hb
      exact Or.inr rfl
  · rintro (rfl | rfl)
    · exact Or.inl rfl
    · exact Or.inr ⟨['.'], ['.'], rfl, lang_lit.2 rfl, lang_lit.2 rfl⟩

theorem acc_intervalEnd {s : Str} (h0 : L0.isLevel0 s = false) (h1 : L1.isLevel1 s = true) (h : Lang (Rx.intervalEnd 1) s) {r : EDTFDate}
    (hp : parseString s = .ok r) : Accepted s := by
  obtain ⟨u, v, rfl, hu, hv⟩ := lang_cat.1 h
  obtain ⟨x, hy, hs, rfl⟩ := lang_date.1 hu
  obtain ⟨c, t, rfl, hc, ht⟩ := lang_cat.1 hv
  rw [lang_lit] at hc
  subst hc
  have ht' := lang_optDots.1 ht
  by_cases hn : x.tail = .none
  · obtain ⟨neg, n, tl⟩ := x
    simp only at hn
    subst hn
    rw [date0_year]
    exact .endless neg n hy t ht'
  · exact acc_after hy hs hn h0 h1 (.ended _ t ht') (fun d d1 d2 => .dayEnded _ d d1 d2 t ht') hp

theorem acc_intervalStart {s : Str} (h0 : L0.isLevel0 s = false) (h1 : L1.isLevel1 s = true) (h : Lang (Rx.intervalStart 1) s) {r : EDTFDate}
    (hp : parseString s = .ok r) : Accepted s := by
  have hm : Rx.IntervalStart.matchString s = true := isIntervalStart_iff.2 h
  obtain ⟨t, v, rfl, ht, hv⟩ := lang_cat.1 h
  obtain ⟨c, u, rfl, hc, hu⟩ := lang_cat.1 hv
  rw [lang_lit] at hc
  subst hc
  obtain ⟨x, hy, hs, rfl⟩ := lang_date.1 hu
  have ht' := lang_optDots.1 ht
  obtain ⟨l, rfl, hl⟩ : ∃ l : Side, t = l.text ∧ (l = .opened ∨ l = .unknown) := by
    rcases ht' with rfl | rfl
    · exact ⟨.unknown, rfl, Or.inr rfl⟩
    · exact ⟨.opened, rfl, Or.inl rfl⟩
  have hse : L1.isSeason (l.text ++ '/' :: x.text) = false := by
    refine not_season_char (fun neg n rest e u hr => ?_) ?_
    · have hd := isDig_dig (n / 1000)
      rcases hl with rfl | rfl <;> cases neg <;> injection e with e _ <;> first | exact absurd e (by decide) | (rw [← e] at hd; exact absurd hd (by decide))
    · intro hm
      rcases List.mem_append.1 hm with hm | hm
      · rcases hl with rfl | rfl <;> exact absurd hm (by decide)
      · rcases List.mem_cons.1 hm with hm | hm
        · exact absurd hm (by decide)
        · exact date0_not_mem x (by decide) (by decide) hm
  have e := parse_extended (l := l) (r := .date x) h0 h1 hse
  change parseString (l.text ++ '/' :: x.text) = _ at e
  have hp' : parseString (l.text ++ '/' :: x.text) = .ok r := hp
  rw [e] at hp'
  unfold L1.parseExtendedInterval L1.parseExtendedIntervalStart at hp'
  have hm' : Rx.IntervalStart.matchString (l.text ++ '/' :: (Side.date x).text) = true := hm
  rw [hm', if_pos rfl, if_neg (by simp)] at hp'
  obtain ⟨sp, hsp, -⟩ := Res.bind_eq_ok.1 hp'
  have hl' : '/' ∉ l.text := by rcases hl with rfl | rfl <;> decide
  change dateSpanFromEDTF (l.text ++ '/' :: x.text) = .ok sp at hsp
  rw [dateSpanFromEDTF_slash hl' (date0_slash x)] at hsp
  obtain ⟨a, -, hsp⟩ := Res.bind_eq_ok.1 hsp
  obtain ⟨b, hb, -⟩ := Res.bind_eq_ok.1 hsp
  rw [halfSpan_date0] at hb
  exact .startless l.text ht' x ((span_date0_iff hy hs).1 ⟨b, hb⟩)

theorem double_sign {t : Str} {sp : DateSpan} (h : dateSpanFromYMD ('-' :: '-' :: t) = .ok sp) : False := by
  obtain ⟨F, y1, y2, m1, m2, d1, d2, py, hF, hE, -⟩ := dateSpan_inv h
  obtain ⟨q, neg, a, b, c, d, t', hq, qo, ha, -⟩ := form_year hF
  rw [hq] at hE
  cases q with
  | left q =>
    injection hE with h1 _
    subst h1
    exact absurd qo (by decide)
  | none =>
    cases neg with
    | false => injection hE with h1 _; subst h1; exact absurd ha (by decide)
    | true => injection hE with _ h1; injection h1 with h1 _; subst h1; exact absurd ha (by decide)
  | right q =>
    cases neg with
    | false => injection hE with h1 _; subst h1; exact absurd ha (by decide)
    | true => injection hE with _ h1; injection h1 with h1 _; subst h1; exact absurd ha (by decide)

theorem acc_negative {s : Str} (h0 : L0.isLevel0 s = false) (h1 : L1.isLevel1 s = true) (h : Lang (Rx.negativeYear 1) s) {r : EDTFDate}
    (hp : parseString s = .ok r) : Accepted s := by
  obtain ⟨c, u, rfl, hc, hu⟩ := lang_cat.1 h
  rw [lang_lit] at hc
  subst hc
  obtain ⟨neg, n, hn, rfl⟩ := lang_year4'.1 (lang_grp.1 hu)
  exfalso
  cases neg with
  | false =>
    rw [isLevel0_iff, show L0.isDate (['-'] ++ yearStr false n) = true from isDate_iff.2 ⟨⟨true, n, .none⟩, hn, trivial, by simp [date0_text, yearStr, sgn]⟩] at h0
    cases h0
  | true =>
    have nm : ∀ {c : Char}, isDig c = false → c ≠ '-' → c ∉ ['-'] ++ yearStr true n := by
      intro c k1 k2 hm
      rcases List.mem_append.1 hm with hm | hm
      · exact k2 (by simpa using hm)
      · exact yearStr_not_mem _ _ k1 k2 hm
    have hse : L1.isSeason (['-'] ++ yearStr true n) = false := by
      refine not_season_char (fun neg n' rest e u hr => ?_) (nm (by decide) (by decide))
      have hd := isDig_dig (n' / 1000)
      cases neg with
      | false => injection e with e _; rw [← e] at hd; exact absurd hd (by decide)
      | true => injection e with _ e; injection e with e _; rw [← e] at hd; exact absurd hd (by decide)
    have hun : L1.isUnspecifiedDigits (['-'] ++ yearStr true n) = false := by
      rw [Bool.eq_false_iff]
      intro h
      obtain ⟨u, v, e, hu, -⟩ := lang_cat.1 (isUnspecifiedDigits_iff.1 h)
      obtain ⟨a, b, c, d, rfl, ha, -⟩ := (lang_rep4 (fun w => lang_digX (w := w))).1 (lang_grp.1 hu)
      injection e with e _
      subst e
      exact absurd ha (by decide)
    rw [parse_level1 h0 h1] at hp
    unfold L1.parseString at hp
    rw [not_letter (nm (by decide) (by decide)), hse, not_qualified (fun c hc => by
      rcases List.mem_cons.1 hc with rfl | hc
      · exact nm (by decide) (by decide)
      · rcases List.mem_cons.1 hc with rfl | hc
        · exact nm (by decide) (by decide)
        · rcases List.mem_cons.1 hc with rfl | hc
          · exact nm (by decide) (by decide)
          · cases hc), hun, isNegativeYear_iff.2 h] at hp
    simp only [Bool.false_eq_true, if_false, if_true] at hp
    unfold L1.parseNegativeCalendarYear at hp
    rw [show Rx.NegativeYear.matchString _ = true from isNegativeYear_iff.2 h, if_neg (by simp)] at hp
    obtain ⟨sp, hsp, -⟩ := Res.bind_eq_ok.1 hp
    rw [dateSpanFromEDTF_noSlash (nm (by decide) (by decide))] at hsp
    exact double_sign hsp

/-! ### Unspecified digits -/

theorem clsHas_one {f : Bool} {rs : List (Char × Char)} {c : Char} (h : clsHas f rs c = true) : ∃ p ∈ rs, clsHas f [p] c = true := by
  unfold clsHas at h
  cases f with
  | true =>
    rw [if_pos rfl, List.any_eq_true] at h
    obtain ⟨d, hd, h⟩ := h
    obtain ⟨p, hp, h⟩ := List.any_eq_true.1 h
    refine ⟨p, hp, ?_⟩
    unfold clsHas
    rw [if_pos rfl, List.any_eq_true]
    exact ⟨d, hd, by simp [h]⟩
  | false =>
    rw [if_neg (by simp), List.any_eq_true] at h
    obtain ⟨p, hp, h⟩ := h
    exact ⟨p, hp, by unfold clsHas; simp [h]⟩

def looseR (p : Char × Char) : Bool := p == ('X', 'X') || (Nat.ble 48 p.1.toNat && Nat.ble p.2.toNat 57)

theorem fold_loose {rs : List (Char × Char)} (hr : rs.all looseR = true) {c : Char} (h : clsHas true rs c = true) :
    isDig c = true ∨ c = 'X' ∨ c = 'x' := by
  obtain ⟨p, hp, h⟩ := clsHas_one h
  have := List.all_eq_true.1 hr p hp
  simp only [looseR, Bool.or_eq_true, beq_iff_eq, Bool.and_eq_true, Nat.ble_eq] at this
  rcases this with rfl | ⟨k1, k2⟩
  · exact Or.inr ((fold_capital (by decide) (by decide) (by decide) (by decide)).1 h)
  · have hl : noLetter p = true := by
      simp only [noLetter, Nat.ble_eq, Bool.or_eq_true, Bool.and_eq_true]
      omega
    rw [clsHas_fold (fun q hq => by rw [List.mem_singleton.1 hq]; exact okFold_noLetter _ _ hl)] at h
    left
    simp only [clsHas, Bool.false_eq_true, if_false, List.any_cons, List.any_nil, Bool.or_false, inR, Bool.and_eq_true, Nat.ble_eq] at h
    simp only [isDig, Bool.and_eq_true, Nat.ble_eq]
    omega

theorem loose_mem {c : Char} (h : isDig c = true ∨ c = 'X' ∨ c = 'x') : c ∈ (c! "0123456789Xx") := by
  rcases h with h | rfl | rfl
  · have : XDigit c := xdigit_iff.2 (by unfold isDX; rw [h]; rfl)
    have := xdigit_mem this
    revert this
    have tb : ∀ c ∈ (c! "X0123456789"), c ∈ (c! "0123456789Xx") := by decide
    exact tb c
  · decide
  · decide

theorem loose_table : ∀ a ∈ (c! "0123456789Xx"), ∀ b ∈ (c! "0123456789Xx"),
    ((Rx.anch dayAlt.ci).matchString [a, b] = true → LooseDay a b ∨ ∃ d, d < 32 ∧ 1 ≤ d ∧ [a, b] = pad2 d) ∧
    (LooseDay a b → (Rx.anch dayAlt.ci).matchString [a, b] = true) := by decide +kernel

theorem loose_month : ∀ m, m < 100 → (m ≤ 12 ∨ 21 ≤ m) → (Rx.anch Rx.monthX.ci).matchString (pad2 m) = true → m ≤ 12 := by decide +kernel

theorem lang_loose {w : Str} (h : Lang dayAlt.ci w) : ∃ a b, w = [a, b] ∧ (LooseDay a b ∨ ∃ d, d < 32 ∧ 1 ≤ d ∧ [a, b] = pad2 d) := by
  have key : ∃ a b, w = [a, b] ∧ a ∈ (c! "0123456789Xx") ∧ b ∈ (c! "0123456789Xx") := by
    rcases h with ⟨u, v, rfl, ⟨a, rfl, ha⟩, ⟨b, rfl, hb⟩⟩ | ⟨u, v, rfl, ⟨a, rfl, ha⟩, ⟨b, rfl, hb⟩⟩ <;>
      exact ⟨a, b, rfl, loose_mem (fold_loose (by decide) ha), loose_mem (fold_loose (by decide) hb)⟩
  obtain ⟨a, b, rfl, ha, hb⟩ := key
  exact ⟨a, b, rfl, (loose_table a ha b hb).1 (by rw [matchString_anch _ (by decide)]; exact h)⟩

theorem loose_chars {a b : Char} (h : LooseDay a b) : a ∈ (c! "0123456789Xx") ∧ b ∈ (c! "0123456789Xx") := by
  have t1 : ∀ c ∈ (c! "012Xx"), c ∈ (c! "0123456789Xx") := by decide
  have t2 : ∀ c ∈ (c! "123456789Xx"), c ∈ (c! "0123456789Xx") := by decide
  have t3 : ∀ c ∈ (c! "3Xx"), c ∈ (c! "0123456789Xx") := by decide
  have t4 : ∀ c ∈ (c! "01Xx"), c ∈ (c! "0123456789Xx") := by decide
  rcases h.1 with h | h
  · exact ⟨t1 a h.1, t2 b h.2⟩
  · exact ⟨t3 a h.1, t4 b h.2⟩

theorem lang_loose_of {a b : Char} (h : LooseDay a b) : Lang dayAlt.ci [a, b] := by
  have := (loose_table a (loose_chars h).1 b (loose_chars h).2).2 h
  rw [matchString_anch _ (by decide)] at this
  exact this

/-- The Level 1 pattern for unspecified digits, in pieces. -/
theorem lang_unspec {s : Str} (h : Lang (Rx.unspecifiedDigits 1).ci s) : ∃ a b c d t, s = a :: b :: c :: d :: t ∧ a ≠ '-' ∧ b ≠ '-' ∧ c ≠ '-' ∧ d ≠ '-' ∧
    (t = [] ∨ ∃ w, t = '-' :: w ∧ ∃ mm v, w = mm ++ v ∧ mm.length = 2 ∧ Lang Rx.monthX.ci mm ∧ (v = [] ∨ ∃ z, v = '-' :: z ∧ Lang dayAlt.ci z)) := by
  have hd : ∀ w : Str, Lang Rx.digX.ci w ↔ ∃ c, w = [c] ∧ clsHas true [('0', '9'), ('X', 'X')] c = true := fun w => Iff.rfl
  have nd : ∀ {c}, clsHas true [('0', '9'), ('X', 'X')] c = true → c ≠ '-' := by
    intro c h e; subst e; exact absurd h (by decide)
  have ld : ∀ {w : Str}, Lang (Rx.lit '-').ci w → w = ['-'] := by
    intro w h
    exact lang_lit.1 ((lang_ci_noLetter (by decide) w).1 h)
  obtain ⟨u, t, rfl, hu, ht⟩ := lang_cat.1 h
  obtain ⟨a, b, c, d, rfl, ha, hb, hc, hd⟩ := (lang_rep4 hd).1 (lang_grp.1 hu)
  refine ⟨a, b, c, d, t, rfl, nd ha, nd hb, nd hc, nd hd, ?_⟩
  rcases lang_opt.1 ht with rfl | ht
  · exact Or.inl rfl
  · obtain ⟨l, w, rfl, hl, hw⟩ := lang_cat.1 ht
    have := ld hl
    subst this
    obtain ⟨mm, v, rfl, hm, hv⟩ := lang_cat.1 hw
    refine Or.inr ⟨_, rfl, mm, v, rfl, by simpa using lang_lens _ _ rfl _ hm, hm, ?_⟩
    rcases lang_opt.1 hv with rfl | hv
    · exact Or.inl rfl
    · obtain ⟨l, z, rfl, hl, hz⟩ := lang_cat.1 hv
      have := ld hl
      subst this
      exact Or.inr ⟨z, rfl, hz⟩

theorem deco_plain {q : Deco} {w : Str} (hq : q.ok = true) (h : ∀ c ∈ (c! "?~%"), c ∉ q.text w) : q = .none := by
  cases q with
  | none => rfl
  | left k =>
    have : k ∈ (c! "?~%") := by simpa [Deco.ok, or_assoc] using hq
    exact absurd (by simp [Deco.text]) (h k this)
  | right k =>
    have : k ∈ (c! "?~%") := by simpa [Deco.ok, or_assoc] using hq
    exact absurd (by simp [Deco.text]) (h k this)

/-- A date that can be read, with no qualifiers and no sign. -/
theorem single_of_reads {s : Str} (h : Reads s) (hq : ∀ q ∈ (c! "?~%"), q ∉ s) (hs : ∀ t, s ≠ '-' :: t) : Accepted s := by
  obtain ⟨e, he, rfl⟩ := h
  obtain ⟨⟨neg, yy, tl⟩, qy, qm, qd⟩ := e
  obtain ⟨⟨hx, o1, o2, o3, ht⟩, hr⟩ := id he
  simp only at hx o1 o2 o3 ht
  have e1 : qy = .none := deco_plain o1 (w := if neg then '-' :: yy else yy) (fun c hc hm => hq c hc (List.mem_append_left _ hm))
  have e2 : qm = .none := by
    cases tl with
    | none => exact ht.1
    | month m => exact deco_plain o2 (w := m) (fun c hc hm => hq c hc (List.mem_append_right _ (List.mem_cons_of_mem _ hm)))
    | day m d => exact deco_plain o2 (w := m) (fun c hc hm => hq c hc (List.mem_append_right _ (List.mem_cons_of_mem _ (List.mem_append_left _ hm))))
  have e3 : qd = .none := by
    cases tl with
    | none => exact ht.2
    | month m => exact ht
    | day m d => exact deco_plain o3 (w := d) (fun c hc hm => hq c hc (List.mem_append_right _ (List.mem_cons_of_mem _ (List.mem_append_right _ (List.mem_cons_of_mem _ hm)))))
  subst e1 e2 e3
  have hn : neg = false := by
    cases neg with
    | false => rfl
    | true => exact absurd rfl (hs _)
  exact .single _ he hn (Or.inl (by simp [noLeft, Deco.isLeft])) (fun _ => ⟨rfl, rfl, rfl⟩)

theorem acc_unspecified {s : Str} (h0 : L0.isLevel0 s = false) (h1 : L1.isLevel1 s = true) (h : Lang (Rx.unspecifiedDigits 1).ci s) {r : EDTFDate}
    (hp : parseString s = .ok r) : Accepted s := by
  have nm : ∀ {c : Char}, (Rx.unspecifiedDigits 1).ci.mayHave c = false → c ∉ s := by
    intro c hc hm
    rw [lang_mayHave _ _ h c hm] at hc
    cases hc
  obtain ⟨a, b, c, d, t, rfl, na, nb, nc, nd, ht⟩ := lang_unspec h
  have ny : ∀ {neg : Bool} {n : Nat} {w : Str}, a :: b :: c :: d :: t = yearStr neg n ++ w → neg = false ∧ [a, b, c, d] = pad4 n ∧ t = w := by
    intro neg n w e
    cases neg with
    | true => injection e with e _; exact absurd e na
    | false =>
      refine ⟨rfl, ?_⟩
      exact List.append_inj (show [a, b, c, d] ++ t = pad4 n ++ w from e) (by rw [pad4_length]; rfl)
  by_cases hse : L1.isSeason (a :: b :: c :: d :: t) = true
  · rcases (C49_exact_partial _).1 hse with ⟨neg, n, m, rest, hn, hm, e⟩ | ⟨pre, w, t1, t2, z, n, -, -, -, -, e⟩
    · obtain ⟨rfl, e1, e2⟩ := ny (neg := neg) (n := n) e
      rcases ht with ht | ⟨w, ht, mm, v, hw, hl, hm2, hv⟩
      · rw [ht] at e2; cases e2
      · rw [ht] at e2
        injection e2 with _ e2
        rw [hw] at e2
        obtain ⟨e3, e4⟩ := List.append_inj e2 (by rw [hl, pad2_length])
        subst e3 e4
        have hm12 : m ≤ 12 := loose_month m (by omega) (by omega) (by rw [matchString_anch _ (by decide)]; exact hm2)
        have hm1 : 1 ≤ m := by omega
        change a :: b :: c :: d :: t = yearStr false n ++ '-' :: (pad2 m ++ v) at e
        rw [e] at hp h0 h1 ⊢
        rcases hv with rfl | ⟨z, rfl, hz⟩
        · rw [List.append_nil, month_level0 false hn hm1 hm12] at h0
          cases h0
        · obtain ⟨k1, k2, rfl, hk⟩ := lang_loose hz
          rcases hk with hk | ⟨dd, d2, d1, ek⟩
          · exact .month false n m hn hm1 hm12 ((acc_prefix hn hm1 hm12 h0 h1).1 ⟨r, hp⟩) _ (.loose k1 k2 hk)
          · exfalso
            rw [ek, isLevel0_iff, show L0.isDate (yearStr false n ++ '-' :: (pad2 m ++ '-' :: pad2 dd)) = true from
              isDate_iff.2 ⟨⟨false, n, .day m dd⟩, hn, ⟨hm1, hm12, d1, Nat.le_of_lt_succ d2⟩, by simp [date0_text]⟩] at h0
            cases h0
    · exact absurd (by rw [e]; simp) (nm (c := ',') (by decide))
  · rw [Bool.not_eq_true] at hse
    rw [parse_level1 h0 h1] at hp
    unfold L1.parseString at hp
    have hq : ∀ q ∈ (c! "?~%"), q ∉ a :: b :: c :: d :: t := by
      intro q hq
      have tb : ∀ q ∈ (c! "?~%"), (Rx.unspecifiedDigits 1).ci.mayHave q = false := by decide
      exact nm (tb q hq)
    rw [not_letter (nm (by decide)), hse, not_qualified hq] at hp
    simp only [Bool.false_eq_true, if_false] at hp
    cases hu : L1.isUnspecifiedDigits (a :: b :: c :: d :: t) with
    | true =>
      rw [hu, if_pos rfl] at hp
      unfold L1.parseUnspecifiedDigits at hp
      rw [show Rx.UnspecifiedDigits.matchString _ = true from hu, if_neg (by simp)] at hp
      obtain ⟨sp, hsp, -⟩ := Res.bind_eq_ok.1 hp
      rw [dateSpanFromEDTF_noSlash (nm (by decide))] at hsp
      exact single_of_reads (reads_iff.1 ⟨sp, hsp⟩) hq (fun t e => by injection e with e _; exact na e)
    | false =>
      exfalso
      have hng : L1.isNegativeCalendarYear (a :: b :: c :: d :: t) = false := by
        rw [Bool.eq_false_iff]
        intro h
        obtain ⟨l, u, e, hl, -⟩ := lang_cat.1 (isNegativeYear_iff.1 h)
        rw [lang_lit] at hl
        subst hl
        injection e with e _
        exact na e
      have hst : Rx.IntervalStart.matchString (a :: b :: c :: d :: t) = false := by
        rw [Bool.eq_false_iff]
        intro h
        obtain ⟨l, u, e, -, hu⟩ := lang_cat.1 (isIntervalStart_iff.1 h)
        obtain ⟨l2, u2, rfl, hl, -⟩ := lang_cat.1 hu
        rw [lang_lit] at hl
        subst hl
        exact absurd (by rw [e]; simp) (nm (c := '/') (by decide))
      have hen : Rx.IntervalEnd.matchString (a :: b :: c :: d :: t) = false := by
        rw [Bool.eq_false_iff]
        intro h
        obtain ⟨l, u, e, -, hu⟩ := lang_cat.1 (isIntervalEnd_iff.1 h)
        obtain ⟨l2, u2, rfl, hl, -⟩ := lang_cat.1 hu
        rw [lang_lit] at hl
        subst hl
        exact absurd (by rw [e]; simp) (nm (c := '/') (by decide))
      rw [hu, hng, isExtendedInterval_true] at hp
      simp only [Bool.false_eq_true, if_false, if_true] at hp
      unfold L1.parseExtendedInterval at hp
      rw [hst, hen] at hp
      cases hp

theorem acc_level1 {s : Str} (h0 : L0.isLevel0 s = false) (h1 : L1.isLevel1 s = true) {r : EDTFDate} (hp : parseString s = .ok r) : Accepted s := by
  rcases isLevel1_iff.1 h1 with h | h | h | h | h | h | h | h
  · exact acc_letter h hp
  · exact acc_seasonNum h0 h hp
  · exact acc_seasonText h hp
  · exact acc_qualified h0 h1 h hp
  · exact acc_unspecified h0 h1 h hp
  · exact acc_intervalStart h0 h1 h hp
  · exact acc_intervalEnd h0 h1 h hp
  · exact acc_negative h0 h1 h hp

end EDTF
