import Verif.PropsPrec
import Verif.PropsQual

/-!
# C29: Level 2 intervals
-/

namespace EDTF
open Spec

namespace Spec

/-- An endpoint of an interval: a date whose digits may be unspecified, with
qualifiers on its components. -/
structure Endpoint where
  date : XDate
  qy : Deco
  qm : Deco
  qd : Deco

/-- Only components that are written are qualified. -/
def Endpoint.shape (e : Endpoint) : Prop :=
  e.date.ok ∧ e.qy.ok = true ∧ e.qm.ok = true ∧ e.qd.ok = true ∧
  match e.date.tail with
  | .none => e.qm = .none ∧ e.qd = .none
  | .month _ => e.qd = .none
  | .day _ _ => True

/-- Qualifiers are on the left. -/
def Endpoint.ok (e : Endpoint) : Prop := e.shape ∧ noRight e.qy e.qm e.qd

/-- As written. -/
def Endpoint.text (e : Endpoint) : Str :=
  e.qy.text (if e.date.neg then '-' :: e.date.year else e.date.year) ++
  match e.date.tail with
  | .none => []
  | .month m => '-' :: e.qm.text m
  | .day m d => '-' :: (e.qm.text m ++ '-' :: e.qd.text d)

end Spec

variable {f : Int → Nat → Nat → Int}

/-! ### The text of an endpoint -/

theorem comp_deco {a : Comp} {w : Str} {q : Deco} (ha : a.q.ok = true) (hq : q.ok = true) (hx : ∀ c ∈ a.x, isQ c = false) (hw : ∀ c ∈ w, isQ c = false)
    (h0 : w ≠ []) (h1 : a.x ≠ []) (h : a.text = q.text w) : a = ⟨w, q⟩ := by
  obtain ⟨x, p⟩ := a
  simp only at *
  have no : ∀ {k : Char} {z : Str}, isQ k = true → (∀ c ∈ z, isQ c = false) → k ∉ z := by
    intro k z hk hz hm
    rw [hz k hm] at hk; cases hk
  cases p <;> cases q <;> simp only [Comp.text, Deco.text] at h
  · rw [h]
  · rw [deco_ok_left] at hq
    exact absurd (by rw [h]; simp) (no hq hx)
  · rw [deco_ok_right] at hq
    exact absurd (by rw [h]; simp) (no hq hx)
  · rw [deco_ok_left] at ha
    exact absurd (by rw [← h]; simp) (no ha hw)
  · injection h with h h'
    rw [h, h']
  · rw [deco_ok_left] at ha
    cases w with
    | nil => exact absurd rfl h0
    | cons k w =>
      injection h with h h'
      subst h
      exact absurd (by simp) (no ha hw)
  · rw [deco_ok_right] at ha
    exact absurd (by rw [← h]; simp) (no ha hw)
  · rw [deco_ok_left] at hq
    cases x with
    | nil => exact absurd rfl h1
    | cons k x =>
      injection h with h h'
      subst h
      exact absurd (by simp) (no hq hx)
  · obtain ⟨h, h'⟩ := List.append_inj' h rfl
    injection h' with h'
    rw [h, h']

theorem yearX_notQ {w : Str} (h : Lang Rx.yearX w) : (∀ c ∈ w, isQ c = false) ∧ w ≠ [] := by
  obtain ⟨neg, a, b, c, d, rfl, ha, hb, hc, hd⟩ := lang_yearX.1 h
  refine ⟨sgn_notQ ?_, by cases neg <;> simp [sgn]⟩
  intro k hk
  simp only [List.mem_cons, List.not_mem_nil, or_false] at hk
  rcases hk with rfl | rfl | rfl | rfl <;> assumption

theorem two_notQ {w : Str} (h : ∃ a b, w = [a, b] ∧ isDX a = true ∧ isDX b = true) : (∀ c ∈ w, isQ c = false) ∧ w ≠ [] := by
  obtain ⟨a, b, rfl, ha, hb⟩ := h
  refine ⟨?_, by simp⟩
  intro k hk
  simp only [List.mem_cons, List.not_mem_nil, or_false] at hk
  rcases hk with rfl | rfl
  · exact isDX_notQ ha
  · exact isDX_notQ hb

theorem lenTwo_notQ {w : Str} (h : w.length = 2) (hw : ∀ c ∈ w, XDigit c) : (∀ c ∈ w, isQ c = false) ∧ w ≠ [] :=
  ⟨fun c hc => isDX_notQ (xall hw c hc), by rintro rfl; cases h⟩

/-- The components of an endpoint are determined by its text. -/
theorem eform {e : Endpoint} (h : e.shape) {F : YMDForm} (hF : F.ok) (he : e.text = F.text) :
    F.yx = sgn e.date.neg e.date.year ∧ F.mx = e.date.mx ∧ F.dx = e.date.dx ∧ F.yc.q = e.qy ∧ F.mq = e.qm ∧ F.dq = e.qd := by
  obtain ⟨x, qy, qm, qd⟩ := e
  obtain ⟨hx, o1, o2, o3, ht⟩ := h
  simp only at hx o1 o2 o3 ht
  have hy := xyear_lang hx
  have hok : (⟨sgn x.neg x.year, qy⟩ : Comp).okFor Rx.yearX := ⟨o1, hy⟩
  have e0 : (⟨sgn x.neg x.year, qy⟩ : Comp).text ++ (match x.tail with
      | .none => []
      | .month m => '-' :: qm.text m
      | .day m d => '-' :: (qm.text m ++ '-' :: qd.text d)) = F.yc.text ++ F.tail := by
    rw [← F.text_eq, ← he]; rfl
  have htail : DashTail (match x.tail with
      | .none => []
      | .month m => '-' :: qm.text m
      | .day m d => '-' :: (qm.text m ++ '-' :: qd.text d)) := by
    cases x.tail with
    | none => exact Or.inl rfl
    | month m => exact Or.inr ⟨_, rfl⟩
    | day m d => exact Or.inr ⟨_, rfl⟩
  obtain ⟨e1, e2⟩ := split_year hok (F.yc_ok hF) htail F.tail_dash e0
  obtain ⟨n1, n2⟩ := yearX_notQ hy
  obtain ⟨n3, n4⟩ := yearX_notQ (F.yc_ok hF).2
  have hyc := comp_deco (F.yc_ok hF).1 o1 n3 n1 n2 n4 e1.symm
  have hyx : F.yx = sgn x.neg x.year := congrArg Comp.x hyc
  have hyq : F.yc.q = qy := congrArg Comp.q hyc
  have htx := hx.2.2
  unfold XDate.mx XDate.dx
  simp only
  have nodash : ∀ {q : Deco} {w : Str}, q.ok = true → w.length = 2 → (∀ c ∈ w, XDigit c) → '-' ∉ q.text w := by
    intro q w hq hl hw hm
    have hd : '-' ∉ w := dx_not_mem (xall hw) (by decide)
    cases q with
    | none => exact hd hm
    | left c =>
      rcases List.mem_cons.1 hm with rfl | hm
      · rw [deco_ok_left] at hq; cases hq
      · exact hd hm
    | right c =>
      rcases List.mem_append.1 hm with hm | hm
      · exact hd hm
      · rw [deco_ok_right, ← List.mem_singleton.1 hm] at hq; cases hq
  cases ht' : x.tail with
  | none =>
    rw [ht'] at e2 ht
    obtain ⟨rfl, rfl⟩ := ht
    cases F with
    | y a => exact ⟨hyx, rfl, rfl, hyq, rfl, rfl⟩
    | ym a b => cases e2
    | ymd a b c => cases e2
  | month m =>
    rw [ht'] at e2 htx ht
    simp only at ht
    subst ht
    cases F with
    | y a => cases e2
    | ym a b =>
      injection e2 with _ e2
      obtain ⟨p1, p2⟩ := lenTwo_notQ htx.1 htx.2
      obtain ⟨p3, p4⟩ := two_notQ (lang_monthX_DX hF.2.2)
      have := comp_deco hF.2.1 o2 p3 p1 p2 p4 e2.symm
      subst this
      exact ⟨hyx, rfl, rfl, hyq, rfl, rfl⟩
    | ymd a b c =>
      injection e2 with _ e2
      exfalso
      refine nodash o2 htx.1 htx.2 ?_
      rw [e2]; simp
  | day m d =>
    rw [ht'] at e2 htx
    cases F with
    | y a => cases e2
    | ym a b =>
      injection e2 with _ e2
      exfalso
      refine (comp2_dash (fun _ => lang_monthX_DX) hF.2).1 ?_
      rw [← e2]; simp
    | ymd a b c =>
      injection e2 with _ e2
      obtain ⟨p1, p2⟩ := lenTwo_notQ htx.1 htx.2.1
      obtain ⟨p3, p4⟩ := two_notQ (lang_monthX_DX hF.2.1.2)
      obtain ⟨p5, p6⟩ := lenTwo_notQ htx.2.2.1 htx.2.2.2
      obtain ⟨p7, p8⟩ := two_notQ (lang_dayX_DX hF.2.2.2)
      obtain ⟨k1, k2⟩ := split_dash (nodash o2 htx.1 htx.2.1) (comp2_dash (fun _ => lang_monthX_DX) hF.2.1).1 (Or.inr ⟨_, rfl⟩) (Or.inr ⟨_, rfl⟩) e2
      injection k2 with _ k2
      have u1 := comp_deco hF.2.1.1 o2 p3 p1 p2 p4 k1.symm
      have u2 := comp_deco hF.2.2.1 o3 p7 p5 p6 p8 k2.symm
      subst u1 u2
      exact ⟨hyx, rfl, rfl, hyq, rfl, rfl⟩

/-! ### Which parser -/

theorem deco_mem {q : Deco} (hq : q.ok = true) {w : Str} {c : Char} (hc : c ∈ q.text w) : c ∈ w ∨ isQ c = true := by
  cases q with
  | none => exact Or.inl hc
  | left k =>
    rcases List.mem_cons.1 hc with rfl | hc
    · exact Or.inr (by rwa [deco_ok_left] at hq)
    · exact Or.inl hc
  | right k =>
    rcases List.mem_append.1 hc with hc | hc
    · exact Or.inl hc
    · rw [List.mem_singleton.1 hc]
      exact Or.inr (by rwa [deco_ok_right] at hq)

theorem echars {e : Endpoint} (h : e.shape) {c : Char} (hc : c ∈ e.text) : isDX c = true ∨ c = '-' ∨ isQ c = true := by
  obtain ⟨⟨neg, yr, tl⟩, qy, qm, qd⟩ := e
  obtain ⟨⟨hl, hy, htx⟩, o1, o2, o3, ht⟩ := h
  simp only at *
  rcases List.mem_append.1 hc with hc | hc
  · rcases deco_mem o1 hc with hc | hc
    · cases neg with
      | false => exact Or.inl (xall hy c hc)
      | true =>
        rcases List.mem_cons.1 hc with hc | hc
        · exact Or.inr (Or.inl hc)
        · exact Or.inl (xall hy c hc)
    · exact Or.inr (Or.inr hc)
  · cases tl with
    | none => cases hc
    | month m =>
      rcases List.mem_cons.1 hc with hc | hc
      · exact Or.inr (Or.inl hc)
      · rcases deco_mem o2 hc with hc | hc
        · exact Or.inl (xall htx.2 c hc)
        · exact Or.inr (Or.inr hc)
    | day m d =>
      rcases List.mem_cons.1 hc with hc | hc
      · exact Or.inr (Or.inl hc)
      · rcases List.mem_append.1 hc with hc | hc
        · rcases deco_mem o2 hc with hc | hc
          · exact Or.inl (xall htx.2.1 c hc)
          · exact Or.inr (Or.inr hc)
        · rcases List.mem_cons.1 hc with hc | hc
          · exact Or.inr (Or.inl hc)
          · rcases deco_mem o3 hc with hc | hc
            · exact Or.inl (xall htx.2.2.2 c hc)
            · exact Or.inr (Or.inr hc)

theorem e_not_mem {e : Endpoint} (h : e.shape) {c : Char} (h1 : isDX c = false) (h2 : c ≠ '-') (h3 : isQ c = false) : c ∉ e.text := by
  intro hc
  rcases echars h hc with k | k | k
  · rw [h1] at k; cases k
  · exact h2 k
  · rw [h3] at k; cases k

theorem e_nonempty {e : Endpoint} (h : e.shape) : e.text ≠ [] := by
  obtain ⟨⟨neg, yr, tl⟩, qy, qm, qd⟩ := e
  obtain ⟨⟨hl, -⟩, -⟩ := h
  obtain ⟨a, b, c, d, rfl⟩ := four_chars hl
  cases qy <;> cases neg <;> simp [Endpoint.text, Deco.text]

theorem elang {e : Endpoint} (h : e.ok) (g : Nat) : Lang (Rx.intervalHalf g) e.text := by
  obtain ⟨x, qy, qm, qd⟩ := e
  obtain ⟨⟨hx, o1, o2, o3, ht⟩, hr⟩ := h
  simp only [noRight, List.mem_cons, List.not_mem_nil, or_false, forall_eq_or_imp, forall_eq] at hr
  simp only at hx o1 o2 o3 ht
  have hy := xyear_lang hx
  have htx := hx.2.2
  have two : ∀ {w : Str}, w.length = 2 → (∀ c ∈ w, XDigit c) → Lang (Re.rep Rx.digX 2) w := by
    intro w hl hw
    obtain ⟨a, b, rfl⟩ := two_chars hl
    exact (lang_rep2 (fun w => lang_digX (w := w))).2 ⟨a, b, rfl, xall hw a (by simp), xall hw b (by simp)⟩
  obtain ⟨w1, e1, g1⟩ := left_lang o1 hr.1 (sgn x.neg x.year) g
  have e1 : qy.text (if x.neg = true then '-' :: x.year else x.year) = w1 ++ sgn x.neg x.year := e1
  unfold Endpoint.text
  simp only
  rw [e1, List.append_assoc]
  cases htl : x.tail with
  | none => exact ⟨w1, _, rfl, g1, _, _, rfl, hy, lang_opt.2 (Or.inl rfl)⟩
  | month m =>
    rw [htl] at htx
    obtain ⟨w2, e2, g2⟩ := left_lang o2 hr.2.1 m (g + 2)
    simp only [e2]
    exact ⟨w1, _, rfl, g1, _, _, rfl, hy, lang_opt.2 (Or.inr ⟨['-'], _, rfl, lang_lit.2 rfl, w2, _, rfl, g2, m, [], by simp, two htx.1 htx.2,
        lang_opt.2 (Or.inl rfl)⟩)⟩
  | day m d =>
    rw [htl] at htx
    obtain ⟨w2, e2, g2⟩ := left_lang o2 hr.2.1 m (g + 2)
    obtain ⟨w3, e3, g3⟩ := left_lang o3 hr.2.2 d (g + 4)
    simp only [e2, e3, List.append_assoc]
    exact ⟨w1, _, rfl, g1, _, _, rfl, hy, lang_opt.2 (Or.inr ⟨['-'], _, rfl, lang_lit.2 rfl, w2, _, rfl, g2, m, _, rfl, two htx.1 htx.2.1,
        lang_opt.2 (Or.inr ⟨['-'], _, rfl, lang_lit.2 rfl, w3, d, rfl, g3, two htx.2.2.1 htx.2.2.2⟩)⟩)⟩

/-- An interval is read as a pair of dates, at Level 0 or Level 2. -/
theorem ivparse {a b : Endpoint} (ha : a.ok) (hb : b.ok) :
    parseString (a.text ++ '/' :: b.text) =
      (dateSpanFromEDTF (a.text ++ '/' :: b.text) >>= fun sp => .ok (mkEDTF sp (a.text ++ '/' :: b.text)
        (if L0.isLevel0 (a.text ++ '/' :: b.text) then 0 else 2) (if L0.isLevel0 (a.text ++ '/' :: b.text) then L0.TIME_INTERVAL else L2.INTERVAL))) := by
  have sa := e_not_mem ha.1 (c := '/') (by decide) (by decide) (by decide)
  have sb := e_not_mem hb.1 (c := '/') (by decide) (by decide) (by decide)
  have nm : ∀ c, isDX c = false → c ≠ '-' → isQ c = false → c ≠ '/' → c ∉ a.text ++ '/' :: b.text := by
    intro c h1 h2 h3 h4 hc
    rcases List.mem_append.1 hc with hc | hc
    · exact e_not_mem ha.1 h1 h2 h3 hc
    · rcases List.mem_cons.1 hc with hc | hc
      · exact h4 hc
      · exact e_not_mem hb.1 h1 h2 h3 hc
  have hI : Lang (Rx.interval 1) (a.text ++ '/' :: b.text) :=
    ⟨a.text, _, rfl, elang ha 1, ['/'], b.text, rfl, lang_lit.2 rfl, elang hb 7⟩
  have hi := isInterval_iff.2 hI
  have hsl : '/' ∈ a.text ++ '/' :: b.text := by simp
  have n1 : ¬ Lang (Rx.intervalStart 1) (a.text ++ '/' :: b.text) := by
    rintro ⟨u, v, e, hu, w, z, rfl, hw, hz⟩
    rw [lang_lit.1 hw] at e
    rcases lang_opt.1 hu with rfl | hu
    · exact e_nonempty ha.1 (char_split sa (by simp) e).1
    · obtain ⟨p, q, rfl, hp, hq⟩ := hu
      rw [lang_lit.1 hp, lang_lit.1 hq] at e
      have := (char_split sa (by simp) e).1
      exact e_not_mem ha.1 (c := '.') (by decide) (by decide) (by decide) (by rw [this]; simp)
  have n2 : ¬ Lang (Rx.intervalEnd 1) (a.text ++ '/' :: b.text) := by
    rintro ⟨u, v, e, hu, w, z, rfl, hw, hz⟩
    rw [lang_lit.1 hw] at e
    have hu' : '/' ∉ u := fun hc => not_lang_of_char (c := '/') (by decide) hc hu
    have := (char_split sa hu' e).2
    rcases lang_opt.1 hz with rfl | hz
    · exact e_nonempty hb.1 this
    · obtain ⟨p, q, rfl, hp, hq⟩ := hz
      rw [lang_lit.1 hp, lang_lit.1 hq] at this
      exact e_not_mem hb.1 (c := '.') (by decide) (by decide) (by decide) (by rw [this]; simp)
  generalize hs : a.text ++ '/' :: b.text = s at *
  cases h0 : L0.isLevel0 s with
  | true =>
    have hd : L0.isDate s = false := by
      cases h : L0.isDate s with
      | false => rfl
      | true =>
        have : Lang (Rx.date 1) s := (matchString_anch _ (by decide) s).1 h
        exact absurd this (not_lang_of_char (c := '/') (by decide) hsl)
    have hdt : L0.isDateAndTime s = false := by
      cases h : L0.isDateAndTime s with
      | false => rfl
      | true =>
        have : Lang (Rx.dateAndTime 1) s := (matchString_anch _ (by decide) s).1 h
        exact absurd this (not_lang_of_char (c := '/') (by decide) hsl)
    have ht : L0.isTimeInterval s = true := by
      rw [isLevel0_iff, hd, hdt] at h0; simpa using h0
    unfold parseString
    rw [if_pos h0]
    unfold L0.parseString
    rw [if_neg (by rw [hd]; simp), if_neg (by rw [hdt]; simp), if_pos ht]
    unfold L0.parseTimeInterval
    rw [show Rx.TimeInterval.matchString s = true from ht]
    rfl
  | false =>
    have h1 : L1.isLevel1 s = false := not_level1_of (nm 'Y' (by decide) (by decide) (by decide) (by decide)) (nm ',' (by decide) (by decide) (by decide) (by decide))
      (not_lang_of_char (c := '/') (by decide) hsl) (not_lang_of_char (c := '/') (by decide) hsl) (not_lang_of_char (c := '/') (by decide) hsl) n1 n2
      (not_lang_of_char (c := '/') (by decide) hsl)
    have h2 : L2.isLevel2 s = true := isLevel2_of (by simp [hi])
    rw [parse_level2 h0 h1 h2]
    unfold L2.parseString
    rw [if_neg (by rw [isExponential_iff]; exact not_lang_of_char (c := '/') (by decide) hsl),
      if_neg (by rw [isSig_iff]; exact not_lang_of_char (c := '/') (by decide) hsl),
      if_neg (by rw [isSubYear_iff]; exact not_lang_of_char (c := '/') (by decide) hsl),
      if_neg (by rw [isSet_iff]; exact not_lang_of_char (c := '/') (by decide) hsl),
      if_neg (by rw [isGroup_iff]; exact not_lang_of_char (c := '/') (by decide) hsl),
      if_neg (by rw [isIndividual_iff]; exact not_lang_of_char (c := '/') (by decide) hsl),
      if_neg (by rw [isUnspecifiedDigit_iff]; exact not_lang_of_char (c := '/') (by decide) hsl), if_pos hi]
    unfold L2.parseInterval
    rw [show Rx.Interval.matchString s = true from hi]
    rfl

/-! ### C29 -/

/-- Halves of an endpoint. -/
theorem ehalf {e : Endpoint} (h : e.shape) : halfSpan e.text = dateSpanFromYMD e.text := by
  unfold halfSpan
  rw [if_neg (show e.text ≠ UNKNOWN from e_nonempty h), if_neg]
  intro hh
  exact e_not_mem h (c := '.') (by decide) (by decide) (by decide) (by rw [hh]; decide)

theorem ivsplit {a b : Endpoint} (ha : a.ok) (hb : b.ok) {r : EDTFDate} (hp : parseString (a.text ++ '/' :: b.text) = .ok r) :
    ∃ ls le rs re, dateSpanFromYMD a.text = .ok ⟨some ls, some le⟩ ∧ dateSpanFromYMD b.text = .ok ⟨some rs, some re⟩ ∧
      r.start = some { ls with upper := le.upper } ∧ r.stop = some { re with lower := rs.lower } := by
  rw [ivparse ha hb] at hp
  obtain ⟨sp, h1, h2⟩ := Res.bind_eq_ok.1 hp
  injection h2 with h2
  subst h2
  rw [dateSpanFromEDTF_slash (e_not_mem ha.1 (by decide) (by decide) (by decide)) (e_not_mem hb.1 (by decide) (by decide) (by decide)),
    ehalf ha.1, ehalf hb.1] at h1
  obtain ⟨l, hl, h1⟩ := Res.bind_eq_ok.1 h1
  obtain ⟨rr, hr, h1⟩ := Res.bind_eq_ok.1 h1
  obtain ⟨ls, le, rs, re, rfl, rfl, rfl⟩ := joinHalves_inv h1
  exact ⟨ls, le, rs, re, hl, hr, rfl, rfl⟩

theorem ivjoin {a b : Endpoint} (ha : a.ok) (hb : b.ok) {ls le rs re : DateRange} (h1 : dateSpanFromYMD a.text = .ok ⟨some ls, some le⟩)
    (h2 : dateSpanFromYMD b.text = .ok ⟨some rs, some re⟩) :
    ∃ r, parseString (a.text ++ '/' :: b.text) = .ok r ∧ r.start = some { ls with upper := le.upper } ∧ r.stop = some { re with lower := rs.lower } := by
  rw [ivparse ha hb, dateSpanFromEDTF_slash (e_not_mem ha.1 (by decide) (by decide) (by decide)) (e_not_mem hb.1 (by decide) (by decide) (by decide)),
    ehalf ha.1, ehalf hb.1, h1, h2]
  exact ⟨_, rfl, rfl, rfl⟩

/-- C29, independence: the start range depends on the first endpoint alone and
the end range on the second alone, and so does whether there is one.  From any
two intervals that parse, the one with the start of the first and the end of the
second parses, to their ranges. -/
theorem C29_alone {a b c d : Endpoint} (ha : a.ok) (hb : b.ok) (hc : c.ok) (hd : d.ok) {r1 r2 : EDTFDate}
    (h1 : parseString (a.text ++ '/' :: b.text) = .ok r1) (h2 : parseString (c.text ++ '/' :: d.text) = .ok r2) :
    ∃ r, parseString (a.text ++ '/' :: d.text) = .ok r ∧ r.start = r1.start ∧ r.stop = r2.stop := by
  obtain ⟨ls, le, rs, re, e1, e2, e3, e4⟩ := ivsplit ha hb h1
  obtain ⟨ls', le', rs', re', e1', e2', e3', e4'⟩ := ivsplit hc hd h2
  obtain ⟨r, hr, k1, k2⟩ := ivjoin ha hd e1 e2'
  exact ⟨r, hr, by rw [k1, e3], by rw [k2, e4']⟩

example : (∃ r, parseString (c! "2004-06-XX/2004-07-~03") = .ok r) ∧
    (∃ r, parseString (c! "2004-07-~03/2004-06-XX") = .ok r) := ⟨⟨_, rfl⟩, ⟨_, rfl⟩⟩

namespace Spec

/-- `R` is the range of the endpoint `e`: from the first second of one day to
the last second of another, both carrying exactly the flags written in `e`; all
readings of `e` are between them, and they are readings of `e` themselves.  (Month
"0X" and day "00" are the exceptions recorded under C20 and C21.) -/
def Endpoint.HasRange (f : Int → Nat → Nat → Int) (e : Endpoint) (R : DateRange) : Prop :=
  ∃ (y1 : Int) (m1 d1 : Nat) (y2 : Int) (m2 d2 : Nat) (p : Prec), Valid y1 m1 d1 ∧ Valid y2 m2 d2 ∧
    R = { edtf := e.text
          lower := some (dayStart f y1 m1 d1 (marked saysUncertain e.qy e.qm e.qd) (marked saysApproximate e.qy e.qm e.qd) p)
          upper := some (dayEnd f y2 m2 d2 (marked saysUncertain e.qy e.qm e.qd) (marked saysApproximate e.qy e.qm e.qd) p) } ∧
    (e.date.mx ≠ c! "0X" → ∀ y m d, e.date.Reads y m d → f y1 m1 d1 ≤ f y m d ∧ f y m d ≤ f y2 m2 d2) ∧
    (e.date.mx ≠ c! "0X" → e.date.dx ≠ c! "00" → e.date.Reads y1 m1 d1 ∧ e.date.Reads y2 m2 d2)

end Spec

theorem ehasRange (hf : DayCount f) {e : Endpoint} (h : e.ok) {s t : DateRange} (hs : dateSpanFromYMD e.text = .ok ⟨some s, some t⟩) :
    e.HasRange f { s with upper := t.upper } ∧ e.HasRange f { t with lower := s.lower } := by
  obtain ⟨F, y1, y2, m1, m2, d1, d2, py, hF, he, hY, hM, hD, V1, V2, hsp⟩ := dateSpan_inv hs
  obtain ⟨f1, f2, f3, f4, f5, f6⟩ := eform h.1 hF he
  rw [f1] at hY
  rw [f2] at hM
  rw [f3] at hD
  rw [f4, f5, f6] at hsp
  unfold spanRec at hsp
  injection hsp with g1 g2
  injection g1 with g1
  injection g2 with g2
  have both : ∀ R : DateRange, R = ⟨e.text, some (dayStart U y1 m1 d1 (marked saysUncertain e.qy e.qm e.qd) (marked saysApproximate e.qy e.qm e.qd) (datePrec py F.mx F.dx)),
      some (dayEnd U y2 m2 d2 (marked saysUncertain e.qy e.qm e.qd) (marked saysApproximate e.qy e.qm e.qd) (datePrec py F.mx F.dx))⟩ → e.HasRange f R := by
    rintro R rfl
    refine ⟨y1, m1, d1, y2, m2, d2, datePrec py F.mx F.dx, V1, V2, ?_, ?_, ?_⟩
    · unfold dayStart dayEnd
      rw [dated_congr hf V1, dated_congr hf V2]
    · intro hm y m d hr
      obtain ⟨b1, b2⟩ := span_between h.1.1 hm hY hM hD hr
      exact ⟨day_order hf V1 hr.1 b1, day_order hf hr.1 V2 b2⟩
    · intro hm h0
      exact span_tight h.1.1 hm h0 hY hM hD V1 V2
  constructor
  · exact both _ (by rw [g1, g2])
  · exact both _ (by rw [g1, g2])

/-- C29, the ranges: flags and bounds of each range are those of its endpoint. -/
theorem C29_ranges (hf : DayCount f) {a b : Endpoint} (ha : a.ok) (hb : b.ok) {r : EDTFDate} (hp : parseString (a.text ++ '/' :: b.text) = .ok r) :
    ∃ R S, r.start = some R ∧ r.stop = some S ∧ a.HasRange f R ∧ b.HasRange f S := by
  obtain ⟨ls, le, rs, re, e1, e2, e3, e4⟩ := ivsplit ha hb hp
  exact ⟨_, _, e3, e4, (ehasRange hf ha e1).1, (ehasRange hf hb e2).2⟩

/-- With a qualifier or an unspecified digit the interval is a Level 2 interval. -/
theorem C29_level {a b : Endpoint} (ha : a.ok) (hb : b.ok) {c : Char} (hc : c ∈ (c! "X?~%")) (hm : c ∈ a.text ∨ c ∈ b.text) {r : EDTFDate}
    (hp : parseString (a.text ++ '/' :: b.text) = .ok r) : r.level = 2 ∧ r.feature = c! "Interval" ∧ r.edtf = a.text ++ '/' :: b.text := by
  have h0 : L0.isLevel0 (a.text ++ '/' :: b.text) = false := by
    have hm : c ∈ a.text ++ '/' :: b.text := by rcases hm with hm | hm <;> simp [hm]
    have tb : ∀ c ∈ (c! "X?~%"), (Re.grp 1 (Rx.date 2 ∥ Rx.dateAndTime 5 ∥ Rx.timeInterval 16)).mayHave c = false := by decide
    exact not_level0_char hm (tb c hc)
  rw [ivparse ha hb, h0] at hp
  obtain ⟨sp, h1, h2⟩ := Res.bind_eq_ok.1 hp
  injection h2 with h2
  subst h2
  exact ⟨rfl, rfl, rfl⟩

/-- Endpoints of the examples: `2004-06-~01` and `200X-~12`. -/
def ivA : Endpoint := ⟨⟨false, c! "2004", .day (c! "06") (c! "01")⟩, .none, .none, .left '~'⟩
def ivB : Endpoint := ⟨⟨false, c! "200X", .month (c! "12")⟩, .none, .left '~', .none⟩

theorem ivA_ok : ivA.ok := by
  refine ⟨⟨⟨rfl, fun c hc => xdigit_iff.2 ?_, rfl, fun c hc => xdigit_iff.2 ?_, rfl, fun c hc => xdigit_iff.2 ?_⟩, rfl, rfl, rfl, trivial⟩, by decide⟩ <;>
    (revert c; decide)

theorem ivB_ok : ivB.ok := by
  refine ⟨⟨⟨rfl, fun c hc => xdigit_iff.2 ?_, rfl, fun c hc => xdigit_iff.2 ?_⟩, rfl, rfl, rfl, rfl⟩, by decide⟩ <;>
    (revert c; decide)

example : ivA.text ++ '/' :: ivB.text = c! "2004-06-~01/200X-~12" ∧ (∃ r, parseString (c! "2004-06-~01/200X-~12") = .ok r) ∧
    (∃ r, parseString (c! "200X-~12/2004-06-~01") = .ok r) := ⟨rfl, ⟨_, rfl⟩, ⟨_, rfl⟩⟩

/-- C29, existing dates: an interval whose endpoints are dates in digits with
qualifiers on the left parses, whatever the qualifiers, and its ranges are those
of the two dates with the flags written. -/
theorem C29_digits (hf : DayCount f) {x y : Date0} (hx : x.ok) (hy : y.ok) {qy qm qd py pm pd : Deco} (hq : Date0.qOk x qy qm qd)
    (hr : noRight qy qm qd) (hq' : Date0.qOk y py pm pd) (hr' : noRight py pm pd) :
    ∃ r, parseString (x.qtext qy qm qd ++ '/' :: y.qtext py pm pd) = .ok r ∧
      r.start = some (x.range f (x.qtext qy qm qd) (marked saysUncertain qy qm qd) (marked saysApproximate qy qm qd) Prec.YEAR) ∧
      r.stop = some (y.range f (y.qtext py pm pd) (marked saysUncertain py pm pd) (marked saysApproximate py pm pd) Prec.YEAR) := by
  have conv : ∀ {x : Date0} {qy qm qd : Deco}, x.ok → Date0.qOk x qy qm qd → noRight qy qm qd → ∃ e : Endpoint, e.ok ∧ e.text = x.qtext qy qm qd := by
    intro x qy qm qd hx hq hr
    obtain ⟨neg, n, t⟩ := x
    have d4 : ∀ c ∈ pad4 n, XDigit c := fun c hc => Or.inr ((isDig_iff c).1 (List.all_eq_true.1 (pad4_all n) c hc))
    have d2 : ∀ k, ∀ c ∈ pad2 k, XDigit c := fun k c hc => Or.inr ((isDig_iff c).1 (List.all_eq_true.1 (pad2_all k) c hc))
    obtain ⟨o1, o2, o3, o4⟩ := hq
    cases t with
    | none => exact ⟨⟨⟨neg, pad4 n, .none⟩, qy, qm, qd⟩, ⟨⟨⟨rfl, d4, trivial⟩, o1, o2, o3, o4⟩, hr⟩, rfl⟩
    | month m => exact ⟨⟨⟨neg, pad4 n, .month (pad2 m)⟩, qy, qm, qd⟩, ⟨⟨⟨rfl, d4, rfl, d2 m⟩, o1, o2, o3, o4⟩, hr⟩, rfl⟩
    | day m d => exact ⟨⟨⟨neg, pad4 n, .day (pad2 m) (pad2 d)⟩, qy, qm, qd⟩, ⟨⟨⟨rfl, d4, rfl, d2 m, rfl, d2 d⟩, o1, o2, o3, trivial⟩, hr⟩, rfl⟩
  obtain ⟨a, ha, ea⟩ := conv hx hq hr
  obtain ⟨b, hb, eb⟩ := conv hy hq' hr'
  have h1 := dateSpan_date0 hx hq
  have h2 := dateSpan_date0 hy hq'
  rw [← ea] at h1 ⊢
  rw [← eb] at h2 ⊢
  obtain ⟨r, p1, p2, p3⟩ := ivjoin ha hb h1 h2
  have v1 := Date0.valid_first hx
  have v2 := Date0.valid_last hx
  have v3 := Date0.valid_first hy
  have v4 := Date0.valid_last hy
  refine ⟨r, p1, ?_, ?_⟩
  · rw [p2]
    simp only [Date0.range, dayStart, dayEnd, dated_congr hf v1, dated_congr hf v2]
  · rw [p3]
    simp only [Date0.range, dayStart, dayEnd, dated_congr hf v3, dated_congr hf v4]

example : (⟨true, 44, .day 3 15⟩ : Date0).ok ∧ Date0.qOk ⟨true, 44, .day 3 15⟩ (.left '?') .none (.left '~') ∧
    (⟨true, 44, .day 3 15⟩ : Date0).qtext (.left '?') .none (.left '~') = c! "?-0044-03-~15" := by decide

/-! ### Endpoints qualified on the right -/

theorem elang_inv {g : Nat} {s : Str} (h : Lang (Rx.intervalHalf g) s) : ∃ e : Endpoint, e.ok ∧ s = e.text := by
  obtain ⟨q1, s, rfl, h1, y, t, rfl, hy, h2⟩ := h
  obtain ⟨neg, a, b, c, d, rfl, ha, hb, hc, hd⟩ := lang_yearX.1 hy
  obtain ⟨a1, b1, e1⟩ := leftOf_spec h1
  have d4 : ∀ k ∈ [a, b, c, d], XDigit k := by
    intro k hk
    simp only [List.mem_cons, List.not_mem_nil, or_false] at hk
    rcases hk with rfl | rfl | rfl | rfl <;> exact xdigit_iff.2 (by assumption)
  have two : ∀ {w : Str}, Lang (Re.rep Rx.digX 2) w → w.length = 2 ∧ ∀ c ∈ w, XDigit c := by
    intro w hw
    obtain ⟨p, q, rfl, hp, hq⟩ := (lang_rep2 (fun w => lang_digX (w := w))).1 hw
    refine ⟨rfl, ?_⟩
    intro k hk
    simp only [List.mem_cons, List.not_mem_nil, or_false] at hk
    rcases hk with rfl | rfl <;> exact xdigit_iff.2 (by assumption)
  have ey : q1 ++ sgn neg [a, b, c, d] = (Deco.leftOf q1).text (if neg = true then '-' :: [a, b, c, d] else [a, b, c, d]) := e1 _
  rw [← List.append_assoc, ey]
  rcases lang_opt.1 h2 with rfl | ⟨p, s, rfl, hp, q2, s, rfl, hq2, m, t, rfl, hm, h3⟩
  · exact ⟨⟨⟨neg, [a, b, c, d], .none⟩, Deco.leftOf q1, .none, .none⟩, ⟨⟨⟨rfl, d4, trivial⟩, a1, rfl, rfl, rfl, rfl⟩, noRight_mk b1 rfl rfl⟩, by simp [Endpoint.text]⟩
  · rw [lang_lit.1 hp]
    obtain ⟨a2, b2, e2⟩ := leftOf_spec hq2
    have tm := two hm
    rcases lang_opt.1 h3 with rfl | ⟨p, s, rfl, hp, q3, d', rfl, hq3, hd'⟩
    · exact ⟨⟨⟨neg, [a, b, c, d], .month m⟩, Deco.leftOf q1, Deco.leftOf q2, .none⟩, ⟨⟨⟨rfl, d4, tm⟩, a1, a2, rfl, rfl⟩, noRight_mk b1 b2 rfl⟩,
        by simp [Endpoint.text, ← e2]⟩
    · rw [lang_lit.1 hp]
      obtain ⟨a3, b3, e3⟩ := leftOf_spec hq3
      have td := two hd'
      exact ⟨⟨⟨neg, [a, b, c, d], .day m d'⟩, Deco.leftOf q1, Deco.leftOf q2, Deco.leftOf q3⟩, ⟨⟨⟨rfl, d4, tm.1, tm.2, td⟩, a1, a2, a3, trivial⟩, noRight_mk b1 b2 b3⟩,
        by simp [Endpoint.text, ← e2, ← e3]⟩

theorem etext_dashes {q : Deco} (hq : q.ok = true) {w : Str} (hw : ∀ c ∈ w, XDigit c) : '-' ∉ q.text w := by
  intro hm
  rcases deco_mem hq hm with hm | hm
  · exact dx_not_mem (xall hw) (by decide) hm
  · cases hm

theorem euniq2 {q q' : Deco} {w w' : Str} (hq : q.ok = true) (hq' : q'.ok = true) (hl : w.length = 2) (hw : ∀ c ∈ w, XDigit c)
    (hl' : w'.length = 2) (hw' : ∀ c ∈ w', XDigit c) (e : q.text w = q'.text w') : q = q' := by
  obtain ⟨p1, p2⟩ := lenTwo_notQ hl hw
  obtain ⟨p3, p4⟩ := lenTwo_notQ hl' hw'
  exact congrArg Comp.q (comp_deco (a := ⟨w, q⟩) (w := w') (q := q') hq hq' p1 p3 p4 p2 e)

theorem euniq {e e' : Endpoint} (h : e.shape) (h' : e'.shape) (he : e.text = e'.text) : e.qy = e'.qy ∧ e.qm = e'.qm ∧ e.qd = e'.qd := by
  obtain ⟨x, qy, qm, qd⟩ := e
  obtain ⟨x', qy', qm', qd'⟩ := e'
  obtain ⟨hx, o1, o2, o3, ht⟩ := h
  obtain ⟨hx', o1', o2', o3', ht'⟩ := h'
  simp only at hx o1 o2 o3 ht hx' o1' o2' o3' ht' ⊢
  have hy := xyear_lang hx
  have hy' := xyear_lang hx'
  have hok : (⟨sgn x.neg x.year, qy⟩ : Comp).okFor Rx.yearX := ⟨o1, hy⟩
  have hok' : (⟨sgn x'.neg x'.year, qy'⟩ : Comp).okFor Rx.yearX := ⟨o1', hy'⟩
  have dt : ∀ (t : XTail) (qm qd : Deco), DashTail (match t with
      | .none => []
      | .month m => '-' :: qm.text m
      | .day m d => '-' :: (qm.text m ++ '-' :: qd.text d)) := by
    intro t qm qd
    cases t with
    | none => exact Or.inl rfl
    | month m => exact Or.inr ⟨_, rfl⟩
    | day m d => exact Or.inr ⟨_, rfl⟩
  obtain ⟨e1, e2⟩ := split_year hok hok' (dt x.tail qm qd) (dt x'.tail qm' qd') he
  obtain ⟨n1, n2⟩ := yearX_notQ hy
  obtain ⟨n3, n4⟩ := yearX_notQ hy'
  refine ⟨congrArg Comp.q (comp_deco (a := ⟨_, qy⟩) (q := qy') o1 o1' n1 n3 n4 n2 e1), ?_⟩
  have htx := hx.2.2
  have htx' := hx'.2.2
  cases hc : x.tail with
  | none =>
    cases hc' : x'.tail with
    | none =>
      rw [hc] at ht
      rw [hc'] at ht'
      simp only at ht ht'
      rw [ht.1, ht.2, ht'.1, ht'.2]
      exact ⟨rfl, rfl⟩
    | month m => rw [hc, hc'] at e2; cases e2
    | day m d => rw [hc, hc'] at e2; cases e2
  | month m =>
    rw [hc] at htx
    cases hc' : x'.tail with
    | none => rw [hc, hc'] at e2; cases e2
    | month m' =>
      rw [hc'] at htx'
      rw [hc] at ht
      rw [hc'] at ht'
      rw [hc, hc'] at e2
      injection e2 with _ e2
      simp only at ht ht'
      rw [ht, ht']
      exact ⟨euniq2 o2 o2' htx.1 htx.2 htx'.1 htx'.2 e2, rfl⟩
    | day m' d' =>
      rw [hc, hc'] at e2
      injection e2 with _ e2
      exfalso
      refine etext_dashes o2 htx.2 ?_
      rw [e2]; simp
  | day m d =>
    rw [hc] at htx
    cases hc' : x'.tail with
    | none => rw [hc, hc'] at e2; cases e2
    | month m' =>
      rw [hc'] at htx'
      rw [hc, hc'] at e2
      injection e2 with _ e2
      exfalso
      refine etext_dashes o2' htx'.2 ?_
      rw [← e2]; simp
    | day m' d' =>
      rw [hc'] at htx'
      rw [hc, hc'] at e2
      injection e2 with _ e2
      obtain ⟨k1, k2⟩ := split_dash (etext_dashes o2 htx.2.1) (etext_dashes o2' htx'.2.1) (Or.inr ⟨_, rfl⟩) (Or.inr ⟨_, rfl⟩) e2
      injection k2 with _ k2
      exact ⟨euniq2 o2 o2' htx.1 htx.2.1 htx'.1 htx'.2.1 k1, euniq2 o3 o3' htx.2.2.1 htx.2.2.2 htx'.2.2.1 htx'.2.2.2 k2⟩

theorem eright_mem {e : Endpoint} (h : e.shape) (hr : ¬ noRight e.qy e.qm e.qd) : ∃ c ∈ e.text, isQ c = true := by
  obtain ⟨⟨neg, yr, tl⟩, qy, qm, qd⟩ := e
  obtain ⟨hx, o1, o2, o3, ht⟩ := h
  simp only at o1 o2 o3 ht hr
  have key : ∀ {q : Deco} (w : Str), q.ok = true → q.isRight (fun _ => true) = true → ∃ c ∈ q.text w, isQ c = true := by
    intro q w hq h
    cases q with
    | right k => exact ⟨k, by simp [Deco.text], by rwa [deco_ok_right] at hq⟩
    | none => cases h
    | left k => cases h
  have : qy.isRight (fun _ => true) = true ∨ qm.isRight (fun _ => true) = true ∨ qd.isRight (fun _ => true) = true := by
    simp only [noRight, List.mem_cons, List.not_mem_nil, or_false, forall_eq_or_imp, forall_eq] at hr
    cases h1 : qy.isRight (fun _ => true) <;> cases h2 : qm.isRight (fun _ => true) <;> cases h3 : qd.isRight (fun _ => true) <;> simp_all
  rcases this with h | h | h
  · obtain ⟨c, hc, hk⟩ := key _ o1 h
    exact ⟨c, List.mem_append_left _ hc, hk⟩
  · cases tl with
    | none => rw [ht.1] at h; cases h
    | month m =>
      obtain ⟨c, hc, hk⟩ := key m o2 h
      exact ⟨c, List.mem_append_right _ (List.mem_cons_of_mem _ hc), hk⟩
    | day m d =>
      obtain ⟨c, hc, hk⟩ := key m o2 h
      exact ⟨c, List.mem_append_right _ (List.mem_cons_of_mem _ (List.mem_append_left _ hc)), hk⟩
  · cases tl with
    | none => rw [ht.2] at h; cases h
    | month m => simp only at ht; rw [ht] at h; cases h
    | day m d =>
      obtain ⟨c, hc, hk⟩ := key d o3 h
      exact ⟨c, List.mem_append_right _ (List.mem_cons_of_mem _ (List.mem_append_right _ (List.mem_cons_of_mem _ hc))), hk⟩

theorem isQ_cases {c : Char} (h : isQ c = true) : c = '?' ∨ c = '~' ∨ c = '%' := by
  unfold isQ at h
  simp only [Bool.or_eq_true, beq_iff_eq] at h
  rcases h with (h | h) | h
  · exact Or.inl h
  · exact Or.inr (Or.inl h)
  · exact Or.inr (Or.inr h)

/-- C29: an endpoint with a qualifier on the right makes the interval an error. -/
theorem C29_right {a b : Endpoint} (ha : a.shape) (hb : b.shape) (hr : ¬ noRight a.qy a.qm a.qd ∨ ¬ noRight b.qy b.qm b.qd) {r : EDTFDate} :
    parseString (a.text ++ '/' :: b.text) ≠ .ok r := by
  intro hp
  have sa := e_not_mem ha (c := '/') (by decide) (by decide) (by decide)
  have sb := e_not_mem hb (c := '/') (by decide) (by decide) (by decide)
  have hsl : '/' ∈ a.text ++ '/' :: b.text := by simp
  have hI : ¬ Lang (Rx.interval 1) (a.text ++ '/' :: b.text) := by
    rintro ⟨u, v, e, hu, p, w, rfl, hp, hw⟩
    rw [lang_lit.1 hp] at e
    obtain ⟨a', ha', rfl⟩ := elang_inv hu
    obtain ⟨b', hb', rfl⟩ := elang_inv hw
    obtain ⟨e1, e2⟩ := char_split sa (e_not_mem ha'.1 (by decide) (by decide) (by decide)) e
    obtain ⟨i1, i2, i3⟩ := euniq ha ha'.1 e1
    obtain ⟨j1, j2, j3⟩ := euniq hb hb'.1 e2
    rcases hr with hr | hr
    · exact hr (by rw [i1, i2, i3]; exact ha'.2)
    · exact hr (by rw [j1, j2, j3]; exact hb'.2)
  have hq : ∃ c ∈ a.text ++ '/' :: b.text, isQ c = true := by
    rcases hr with hr | hr
    · obtain ⟨c, hc, hk⟩ := eright_mem ha hr
      exact ⟨c, List.mem_append_left _ hc, hk⟩
    · obtain ⟨c, hc, hk⟩ := eright_mem hb hr
      exact ⟨c, List.mem_append_right _ (List.mem_cons_of_mem _ hc), hk⟩
  have nm : ∀ c, isDX c = false → c ≠ '-' → isQ c = false → c ≠ '/' → c ∉ a.text ++ '/' :: b.text := by
    intro c h1 h2 h3 h4 hc
    rcases List.mem_append.1 hc with hc | hc
    · exact e_not_mem ha h1 h2 h3 hc
    · rcases List.mem_cons.1 hc with hc | hc
      · exact h4 hc
      · exact e_not_mem hb h1 h2 h3 hc
  generalize a.text ++ '/' :: b.text = s at *
  obtain ⟨c, hc, hk⟩ := hq
  have noQ : ∀ {r : Re}, (r.mayHave '?' = false ∧ r.mayHave '~' = false ∧ r.mayHave '%' = false) → r.mayHave c = false := by
    intro r h
    rcases isQ_cases hk with rfl | rfl | rfl
    · exact h.1
    · exact h.2.1
    · exact h.2.2
  have h0 : L0.isLevel0 s = false := not_level0_char hc (noQ (by decide))
  have h1 : L1.isLevel1 s = false := not_level1_of (nm 'Y' (by decide) (by decide) (by decide) (by decide)) (nm ',' (by decide) (by decide) (by decide) (by decide))
    (not_lang_of_char (c := '/') (by decide) hsl) (not_lang_of_char (c := '/') (by decide) hsl) (not_lang_of_char (c := '/') (by decide) hsl)
    (not_lang_of_char (noQ (by decide)) hc) (not_lang_of_char (noQ (by decide)) hc) (not_lang_of_char (c := '/') (by decide) hsl)
  unfold parseString at hp
  rw [h0, h1] at hp
  simp only [Bool.false_eq_true, if_false] at hp
  by_cases h2 : L2.isLevel2 s = true
  · rw [if_pos h2] at hp
    unfold L2.parseString at hp
    rw [if_neg (by rw [isExponential_iff]; exact not_lang_of_char (c := '/') (by decide) hsl),
      if_neg (by rw [isSig_iff]; exact not_lang_of_char (c := '/') (by decide) hsl),
      if_neg (by rw [isSubYear_iff]; exact not_lang_of_char (c := '/') (by decide) hsl),
      if_neg (by rw [isSet_iff]; exact not_lang_of_char (c := '/') (by decide) hsl),
      if_neg (by rw [isGroup_iff]; exact not_lang_of_char (c := '/') (by decide) hsl),
      if_neg (by rw [isIndividual_iff]; exact not_lang_of_char (c := '/') (by decide) hsl),
      if_neg (by rw [isUnspecifiedDigit_iff]; exact not_lang_of_char (c := '/') (by decide) hsl), if_neg (by rw [isInterval_iff]; exact hI)] at hp
    cases hp
  · rw [if_neg h2, if_neg (by rintro rfl; revert hsl; decide), if_neg (by rintro rfl; revert hsl; decide)] at hp
    cases hp

example : (⟨⟨false, c! "1984", .none⟩, .right '~', .none, .none⟩ : Endpoint).text ++ '/' :: (⟨⟨false, c! "2004", .month (c! "06")⟩, .none, .none, .none⟩ : Endpoint).text =
    c! "1984~/2004-06" ∧ ¬ noRight (.right '~') .none .none := by decide

/-- C29, the converse: everything reported as a Level 2 interval is a pair of
such endpoints. -/
theorem C29_only {s : Str} {r : EDTFDate} (h : parseString s = .ok r) (hft : r.feature = c! "Interval") :
    ∃ a b : Endpoint, a.ok ∧ b.ok ∧ s = a.text ++ '/' :: b.text := by
  have hft : r.feature = L2.INTERVAL := hft
  obtain ⟨-, -, -, hp, hm⟩ := parse_feature2 h (by rw [hft]; decide)
  rw [hft] at hm
  unfold L2.matchesStr at hm
  have hi : L2.isInterval s = true := by
    cases hi : L2.isInterval s with
    | true => rfl
    | false =>
      exfalso
      rw [hi] at hm
      repeat' split at hm
      all_goals first | contradiction | (injection hm with hm; exact absurd hm (by decide)) | cases hm
  obtain ⟨u, v, rfl, hu, p, w, rfl, hs, hw⟩ := isInterval_iff.1 hi
  obtain ⟨a, ha, rfl⟩ := elang_inv hu
  obtain ⟨b, hb, rfl⟩ := elang_inv hw
  exact ⟨a, b, ha, hb, by rw [lang_lit.1 hs]; rfl⟩

example : ∃ r, parseString (c! "2004-06-~01/2004-06-~20") = .ok r ∧ r.feature = c! "Interval" := ⟨_, rfl, rfl⟩

end EDTF
