/- Group and individual qualification: the two languages. -/
import Verif.LemmasL2
namespace EDTF
open Spec

theorem lang_qOpt {g : Nat} {w : Str} : Lang (Rx.qOpt g) w ↔ w = [] ∨ ∃ q, isQ q = true ∧ w = [q] := by
  constructor
  · intro h
    rcases lang_opt.1 h with h | h
    · exact Or.inl h
    · rcases h with h | h | h <;> exact Or.inr ⟨_, by decide, lang_lit.1 h⟩
  · rintro (h | ⟨q, hq, rfl⟩)
    · exact lang_opt.2 (Or.inl h)
    · simp only [isQ, Bool.or_eq_true, beq_iff_eq] at hq
      refine lang_opt.2 (Or.inr ?_)
      rcases hq with (rfl | rfl) | rfl
      · exact Or.inr (Or.inr (lang_lit.2 rfl))
      · exact Or.inr (Or.inl (lang_lit.2 rfl))
      · exact Or.inl (lang_lit.2 rfl)

theorem lang_digits4' {w : Str} : Lang (Re.rep Rx.digit 4) w ↔ ∃ n, n < 10000 ∧ w = pad4 n := by
  rw [lang_rep4 (fun _ => lang_digit)]
  constructor
  · rintro ⟨a, b, c, d, rfl, h1, h2, h3, h4⟩
    exact four_digits h1 h2 h3 h4
  · rintro ⟨n, -, rfl⟩
    exact ⟨_, _, _, _, rfl, isDig_dig _, isDig_dig _, isDig_dig _, isDig_dig _⟩

theorem lang_digits2' {w : Str} : Lang (Re.rep Rx.digit 2) w ↔ ∃ n, n < 100 ∧ w = pad2 n := by
  rw [lang_rep2 (fun _ => lang_digit)]
  constructor
  · rintro ⟨a, b, rfl, h1, h2⟩
    exact two_digits h1 h2
  · rintro ⟨n, -, rfl⟩
    exact ⟨_, _, rfl, isDig_dig _, isDig_dig _⟩

/-- Two-digit month and day, whatever they are. -/
def Date0.wide (x : Date0) : Prop :=
  x.neg = false ∧ x.year < 10000 ∧
  match x.tail with
  | .none => True
  | .month m => m < 100
  | .day m d => m < 100 ∧ d < 100

def Deco.rightOf (q : Str) : Deco := match q with
  | [] => .none
  | c :: _ => .right c
def Deco.leftOf (q : Str) : Deco := match q with
  | [] => .none
  | c :: _ => .left c

theorem rightOf_spec {g : Nat} {q : Str} (h : Lang (Rx.qOpt g) q) :
    (Deco.rightOf q).ok = true ∧ (Deco.rightOf q).isLeft (fun _ => true) = false ∧ ∀ x, x ++ q = (Deco.rightOf q).text x := by
  rcases lang_qOpt.1 h with rfl | ⟨c, hc, rfl⟩
  · exact ⟨rfl, rfl, fun x => by simp [Deco.rightOf, Deco.text]⟩
  · exact ⟨hc, rfl, fun x => rfl⟩

theorem leftOf_spec {g : Nat} {q : Str} (h : Lang (Rx.qOpt g) q) :
    (Deco.leftOf q).ok = true ∧ (Deco.leftOf q).isRight (fun _ => true) = false ∧ ∀ x, q ++ x = (Deco.leftOf q).text x := by
  rcases lang_qOpt.1 h with rfl | ⟨c, hc, rfl⟩
  · exact ⟨rfl, rfl, fun x => by simp [Deco.leftOf, Deco.text]⟩
  · exact ⟨hc, rfl, fun x => rfl⟩

theorem right_lang {q : Deco} (hq : q.ok = true) (hl : q.isLeft (fun _ => true) = false) (x : Str) (g : Nat) :
    ∃ w, q.text x = x ++ w ∧ Lang (Rx.qOpt g) w := by
  cases q with
  | none => exact ⟨[], by simp [Deco.text], lang_qOpt.2 (Or.inl rfl)⟩
  | left q => cases hl
  | right q => exact ⟨[q], rfl, lang_qOpt.2 (Or.inr ⟨q, hq, rfl⟩)⟩

theorem left_lang {q : Deco} (hq : q.ok = true) (hl : q.isRight (fun _ => true) = false) (x : Str) (g : Nat) :
    ∃ w, q.text x = w ++ x ∧ Lang (Rx.qOpt g) w := by
  cases q with
  | none => exact ⟨[], by simp [Deco.text], lang_qOpt.2 (Or.inl rfl)⟩
  | right q => cases hl
  | left q => exact ⟨[q], rfl, lang_qOpt.2 (Or.inr ⟨q, hq, rfl⟩)⟩

theorem noLeft_mk {a b c : Deco} (ha : a.isLeft (fun _ => true) = false) (hb : b.isLeft (fun _ => true) = false)
    (hc : c.isLeft (fun _ => true) = false) : noLeft a b c := by
  intro q hq
  simp only [List.mem_cons, List.not_mem_nil, or_false] at hq
  rcases hq with rfl | rfl | rfl <;> assumption

theorem noRight_mk {a b c : Deco} (ha : a.isRight (fun _ => true) = false) (hb : b.isRight (fun _ => true) = false)
    (hc : c.isRight (fun _ => true) = false) : noRight a b c := by
  intro q hq
  simp only [List.mem_cons, List.not_mem_nil, or_false] at hq
  rcases hq with rfl | rfl | rfl <;> assumption

/-- The group qualification language. -/
theorem lang_group {g : Nat} {s : Str} : Lang (Rx.groupQualification g) s ↔
    ∃ (x : Date0) (qy qm qd : Deco), Date0.wide x ∧ Date0.qOk x qy qm qd ∧ noLeft qy qm qd ∧ s = x.qtext qy qm qd := by
  constructor
  · intro h
    obtain ⟨y, s, rfl, hy, h_1⟩ := lang_cat.1 h
    obtain ⟨q1, s, rfl, h1, h_2⟩ := lang_cat.1 h_1
    obtain ⟨n, hn, rfl⟩ := lang_digits4'.1 hy
    obtain ⟨a1, b1, e1⟩ := rightOf_spec h1
    rcases lang_opt.1 h_2 with rfl | h_3
    · exact ⟨⟨false, n, .none⟩, Deco.rightOf q1, .none, .none, ⟨rfl, hn, trivial⟩, ⟨a1, rfl, rfl, rfl, rfl⟩,
        noLeft_mk b1 rfl rfl, by simp [Date0.qtext, e1]⟩
    obtain ⟨d, s, rfl, hd, h_4⟩ := lang_cat.1 h_3
    obtain ⟨y, s, rfl, hy, h_5⟩ := lang_cat.1 h_4
    obtain ⟨q2, s, rfl, h2, h_6⟩ := lang_cat.1 h_5
    obtain ⟨m, hm, rfl⟩ := lang_digits2'.1 hy
    obtain ⟨a2, b2, e2⟩ := rightOf_spec h2
    rw [lang_lit.1 hd]
    rcases lang_opt.1 h_6 with rfl | h_7
    · exact ⟨⟨false, n, .month m⟩, Deco.rightOf q1, Deco.rightOf q2, .none, ⟨rfl, hn, hm⟩, ⟨a1, a2, rfl, rfl⟩,
        noLeft_mk b1 b2 rfl, by simp [Date0.qtext, ← e1, ← e2]⟩
    obtain ⟨d, s, rfl, hd, h_8⟩ := lang_cat.1 h_7
    obtain ⟨y, q3, rfl, hy, h3⟩ := lang_cat.1 h_8
    obtain ⟨k, hk, rfl⟩ := lang_digits2'.1 hy
    obtain ⟨a3, b3, e3⟩ := rightOf_spec h3
    rw [lang_lit.1 hd]
    exact ⟨⟨false, n, .day m k⟩, Deco.rightOf q1, Deco.rightOf q2, Deco.rightOf q3, ⟨rfl, hn, hm, hk⟩, ⟨a1, a2, a3, trivial⟩,
        noLeft_mk b1 b2 b3, by simp [Date0.qtext, ← e1, ← e2, ← e3]⟩
  · rintro ⟨⟨neg, n, t⟩, qy, qm, qd, ⟨h0, hn, ht⟩, ⟨o1, o2, o3, o4⟩, hl, rfl⟩
    simp only at h0
    subst h0
    simp only [noLeft, List.mem_cons, List.not_mem_nil, or_false, forall_eq_or_imp, forall_eq] at hl
    obtain ⟨w1, e1, g1⟩ := right_lang o1 hl.1 (pad4 n) (g + 1)
    simp only [Date0.qtext, Bool.false_eq_true, if_false]
    have hy : Lang (Re.grp g (Re.rep Rx.digit 4)) (pad4 n) := lang_digits4'.2 ⟨n, hn, rfl⟩
    rw [e1]
    cases t with
    | none => exact ⟨pad4 n, w1, by simp, hy, w1, [], by simp, g1, lang_opt.2 (Or.inl rfl)⟩
    | month m =>
      obtain ⟨w2, e2, g2⟩ := right_lang o2 hl.2.1 (pad2 m) (g + 3)
      have hm : Lang (Re.grp (g + 2) (Re.rep Rx.digit 2)) (pad2 m) := lang_digits2'.2 ⟨m, ht, rfl⟩
      simp only [e2]
      exact ⟨_, _, by simp; rfl, hy, w1, _, rfl, g1, lang_opt.2 (Or.inr ⟨['-'], _, rfl, lang_lit.2 rfl, pad2 m, _, rfl, hm, w2, [], by simp, g2,
        lang_opt.2 (Or.inl rfl)⟩)⟩
    | day m d =>
      obtain ⟨w2, e2, g2⟩ := right_lang o2 hl.2.1 (pad2 m) (g + 3)
      obtain ⟨w3, e3, g3⟩ := right_lang o3 hl.2.2 (pad2 d) (g + 5)
      have hm : Lang (Re.grp (g + 2) (Re.rep Rx.digit 2)) (pad2 m) := lang_digits2'.2 ⟨m, ht.1, rfl⟩
      have hd : Lang (Re.grp (g + 4) (Re.rep Rx.digit 2)) (pad2 d) := lang_digits2'.2 ⟨d, ht.2, rfl⟩
      simp only [e2, e3]
      exact ⟨_, _, by simp; rfl, hy, w1, _, rfl, g1, lang_opt.2 (Or.inr ⟨['-'], pad2 m ++ (w2 ++ '-' :: (pad2 d ++ w3)), by simp, lang_lit.2 rfl, pad2 m, _, rfl, hm, w2, _, rfl, g2,
        lang_opt.2 (Or.inr ⟨['-'], _, rfl, lang_lit.2 rfl, pad2 d, w3, rfl, hd, g3⟩)⟩)⟩

/-- The individual qualification language. -/
theorem lang_individual {g : Nat} {s : Str} : Lang (Rx.individualQualification g) s ↔
    ∃ (x : Date0) (qy qm qd : Deco), Date0.wide x ∧ Date0.qOk x qy qm qd ∧ noRight qy qm qd ∧ s = x.qtext qy qm qd := by
  constructor
  · intro h
    obtain ⟨q1, s, rfl, h1, h_1⟩ := lang_cat.1 h
    obtain ⟨y, s, rfl, hy, h_2⟩ := lang_cat.1 h_1
    obtain ⟨n, hn, rfl⟩ := lang_digits4'.1 hy
    obtain ⟨a1, b1, e1⟩ := leftOf_spec h1
    rcases lang_opt.1 h_2 with rfl | h_3
    · exact ⟨⟨false, n, .none⟩, Deco.leftOf q1, .none, .none, ⟨rfl, hn, trivial⟩, ⟨a1, rfl, rfl, rfl, rfl⟩,
        noRight_mk b1 rfl rfl, by simp [Date0.qtext, e1]⟩
    obtain ⟨d, s, rfl, hd, h_4⟩ := lang_cat.1 h_3
    obtain ⟨q2, s, rfl, h2, h_5⟩ := lang_cat.1 h_4
    obtain ⟨y, s, rfl, hy, h_6⟩ := lang_cat.1 h_5
    obtain ⟨m, hm, rfl⟩ := lang_digits2'.1 hy
    obtain ⟨a2, b2, e2⟩ := leftOf_spec h2
    rw [lang_lit.1 hd]
    rcases lang_opt.1 h_6 with rfl | h_7
    · exact ⟨⟨false, n, .month m⟩, Deco.leftOf q1, Deco.leftOf q2, .none, ⟨rfl, hn, hm⟩, ⟨a1, a2, rfl, rfl⟩,
        noRight_mk b1 b2 rfl, by simp [Date0.qtext, ← e1, ← e2]⟩
    obtain ⟨d, s, rfl, hd, h_8⟩ := lang_cat.1 h_7
    obtain ⟨q3, y, rfl, h3, hy⟩ := lang_cat.1 h_8
    obtain ⟨k, hk, rfl⟩ := lang_digits2'.1 hy
    obtain ⟨a3, b3, e3⟩ := leftOf_spec h3
    rw [lang_lit.1 hd]
    exact ⟨⟨false, n, .day m k⟩, Deco.leftOf q1, Deco.leftOf q2, Deco.leftOf q3, ⟨rfl, hn, hm, hk⟩, ⟨a1, a2, a3, trivial⟩,
        noRight_mk b1 b2 b3, by simp [Date0.qtext, ← e1, ← e2, ← e3]⟩
  · rintro ⟨⟨neg, n, t⟩, qy, qm, qd, ⟨h0, hn, ht⟩, ⟨o1, o2, o3, o4⟩, hl, rfl⟩
    simp only at h0
    subst h0
    simp only [noRight, List.mem_cons, List.not_mem_nil, or_false, forall_eq_or_imp, forall_eq] at hl
    obtain ⟨w1, e1, g1⟩ := left_lang o1 hl.1 (pad4 n) g
    simp only [Date0.qtext, Bool.false_eq_true, if_false]
    have hy : Lang (Re.grp (g + 1) (Re.rep Rx.digit 4)) (pad4 n) := lang_digits4'.2 ⟨n, hn, rfl⟩
    rw [e1]
    cases t with
    | none => exact ⟨w1, _, by simp; rfl, g1, pad4 n, [], by simp, hy, lang_opt.2 (Or.inl rfl)⟩
    | month m =>
      obtain ⟨w2, e2, g2⟩ := left_lang o2 hl.2.1 (pad2 m) (g + 2)
      have hm : Lang (Re.grp (g + 3) (Re.rep Rx.digit 2)) (pad2 m) := lang_digits2'.2 ⟨m, ht, rfl⟩
      simp only [e2]
      exact ⟨w1, _, by simp; rfl, g1, pad4 n, _, rfl, hy, lang_opt.2 (Or.inr ⟨['-'], _, rfl, lang_lit.2 rfl, w2, _, rfl, g2, pad2 m, [], by simp, hm,
        lang_opt.2 (Or.inl rfl)⟩)⟩
    | day m d =>
      obtain ⟨w2, e2, g2⟩ := left_lang o2 hl.2.1 (pad2 m) (g + 2)
      obtain ⟨w3, e3, g3⟩ := left_lang o3 hl.2.2 (pad2 d) (g + 4)
      have hm : Lang (Re.grp (g + 3) (Re.rep Rx.digit 2)) (pad2 m) := lang_digits2'.2 ⟨m, ht.1, rfl⟩
      have hd : Lang (Re.grp (g + 5) (Re.rep Rx.digit 2)) (pad2 d) := lang_digits2'.2 ⟨d, ht.2, rfl⟩
      simp only [e2, e3]
      exact ⟨w1, _, by simp; rfl, g1, pad4 n, _, rfl, hy, lang_opt.2 (Or.inr ⟨['-'], _, rfl, lang_lit.2 rfl, w2, pad2 m ++ '-' :: (w3 ++ pad2 d), by simp, g2, pad2 m, _, rfl, hm,
        lang_opt.2 (Or.inr ⟨['-'], _, rfl, lang_lit.2 rfl, w3, pad2 d, rfl, g3, hd⟩)⟩)⟩

/-! ### Uniqueness of the written form -/

theorem deco_inj' {q q' : Deco} {x x' : Str} (hq : q.ok = true) (hq' : q'.ok = true) (hx : ∀ c ∈ x, isQ c = false) (hx' : ∀ c ∈ x', isQ c = false)
    (hn : x ≠ []) (hn' : x' ≠ []) (e : q.text x = q'.text x') : q = q' ∧ x = x' := by
  have nq : ∀ {c : Char} {u : Str}, (∀ c ∈ u, isQ c = false) → isQ c = true → c ∉ u := by
    intro c u hu hc hm
    rw [hu c hm] at hc; cases hc
  have last : ∀ {u u' : Str} {c c' : Char}, u ++ [c] = u' ++ [c'] → u = u' ∧ c = c' := by
    intro u u' c c' h
    have := List.append_inj_left' h rfl
    have h2 := List.append_inj_right' h rfl
    exact ⟨this, by simpa using h2⟩
  cases q with
  | none => cases q' with
    | none => exact ⟨rfl, e⟩
    | left c =>
      exact absurd (show c ∈ x by rw [show x = c :: x' from e]; simp) (nq hx hq')
    | right c =>
      exact absurd (show c ∈ x by rw [show x = x' ++ [c] from e]; simp) (nq hx hq')
  | left c => cases q' with
    | none => exact absurd (show c ∈ x' by rw [← show c :: x = x' from e]; simp) (nq hx' hq)
    | left c' =>
      injection e with e1 e2
      exact ⟨by rw [e1], e2⟩
    | right c' =>
      exfalso
      have e : c :: x = x' ++ [c'] := e
      obtain ⟨a, t, rfl⟩ := List.exists_cons_of_ne_nil hn'
      injection e with e _
      subst e
      exact nq hx' hq (by simp)
  | right c => cases q' with
    | none => exact absurd (show c ∈ x' by rw [← show x ++ [c] = x' from e]; simp) (nq hx' hq)
    | left c' =>
      exfalso
      have e : x ++ [c] = c' :: x' := e
      obtain ⟨a, t, rfl⟩ := List.exists_cons_of_ne_nil hn
      injection e with e _
      subst e
      exact nq hx hq' (by simp)
    | right c' =>
      obtain ⟨a, b⟩ := last (show x ++ [c] = x' ++ [c'] from e)
      exact ⟨by rw [b], a⟩

theorem digits_notQ {u : Str} (hu : u.all isDig = true) : ∀ c ∈ u, isQ c = false := by
  intro c hm
  have h1 := List.all_eq_true.1 hu c hm
  exact isDX_notQ (by simp [isDX, h1])

theorem deco_inj {q q' : Deco} {x x' : Str} (hq : q.ok = true) (hq' : q'.ok = true) (hx : x.all isDig = true) (hx' : x'.all isDig = true)
    (hn : x ≠ []) (hn' : x' ≠ []) (e : q.text x = q'.text x') : q = q' ∧ x = x' :=
  deco_inj' hq hq' (digits_notQ hx) (digits_notQ hx') hn hn' e

theorem deco_no_dash {q : Deco} {x : Str} (hq : q.ok = true) (hx : x.all isDig = true) : '-' ∉ q.text x := by
  have hx : '-' ∉ x := digits_not_mem hx (by decide)
  cases q with
  | none => exact hx
  | left c => intro h; rcases List.mem_cons.1 h with h | h
              · exact (isQ_ne hq).1 h.symm
              · exact hx h
  | right c => intro h; rcases List.mem_append.1 h with h | h
               · exact hx h
               · exact (isQ_ne hq).1 (by simpa using (List.mem_singleton.1 h).symm)

def Date0.qtail (x : Date0) (qm qd : Deco) : Str :=
  match x.tail with
  | .none => []
  | .month m => '-' :: qm.text (pad2 m)
  | .day m d => '-' :: (qm.text (pad2 m) ++ '-' :: qd.text (pad2 d))

theorem pad4_inj {n m : Nat} (hn : n < 10000) (hm : m < 10000) (e : pad4 n = pad4 m) : n = m := by
  have := atoi_pad4 hn
  rw [e, atoi_pad4 hm] at this
  injection this with this
  omega

theorem qtext_inj {x x' : Date0} {qy qm qd qy' qm' qd' : Deco} (hx : Date0.wide x) (hx' : Date0.wide x')
    (hq : Date0.qOk x qy qm qd) (hq' : Date0.qOk x' qy' qm' qd') (e : x.qtext qy qm qd = x'.qtext qy' qm' qd') :
    x = x' ∧ qy = qy' ∧ qm = qm' ∧ qd = qd' := by
  obtain ⟨neg, n, t⟩ := x
  obtain ⟨neg', n', t'⟩ := x'
  obtain ⟨h1, h2, h3⟩ := hx
  obtain ⟨h1', h2', h3'⟩ := hx'
  obtain ⟨o1, o2, o3, o4⟩ := hq
  obtain ⟨o1', o2', o3', o4'⟩ := hq'
  simp only at h1 h2 h1' h2'
  subst h1 h1'
  have e : qy.text (pad4 n) ++ Date0.qtail ⟨false, n, t⟩ qm qd = qy'.text (pad4 n') ++ Date0.qtail ⟨false, n', t'⟩ qm' qd' := e
  have dt : ∀ n t qm qd, DashTail (Date0.qtail ⟨false, n, t⟩ qm qd) := by
    intro n t qm qd
    cases t with
    | none => exact Or.inl rfl
    | month m => exact Or.inr ⟨_, rfl⟩
    | day m d => exact Or.inr ⟨_, rfl⟩
  obtain ⟨ey, et⟩ := split_dash (deco_no_dash o1 (pad4_all n)) (deco_no_dash o1' (pad4_all n')) (dt _ _ _ _) (dt _ _ _ _) e
  obtain ⟨rfl, en⟩ := deco_inj o1 o1' (pad4_all n) (pad4_all n') (pad4_ne_nil _) (pad4_ne_nil _) ey
  have en := pad4_inj h2 h2' en
  subst en
  cases t with
  | none =>
    cases t' with
    | none => simp only at o4 o4'; exact ⟨rfl, rfl, by rw [o4.1, o4'.1], by rw [o4.2, o4'.2]⟩
    | month m => cases et
    | day m d => cases et
  | month m =>
    cases t' with
    | none => cases et
    | month m' =>
      injection et with _ et
      obtain ⟨rfl, em⟩ := deco_inj o2 o2' (pad2_all m) (pad2_all m') (pad2_ne_nil _) (pad2_ne_nil _) et
      have em := pad2_inj h3 h3' em
      subst em
      simp only at o4 o4'
      exact ⟨rfl, rfl, rfl, by rw [o4, o4']⟩
    | day m' d' =>
      exfalso
      injection et with _ et
      have := deco_no_dash o2 (pad2_all m)
      rw [et] at this
      exact this (by simp)
  | day m d =>
    cases t' with
    | none => cases et
    | month m' =>
      exfalso
      injection et with _ et
      have := deco_no_dash o2' (pad2_all m')
      rw [← et] at this
      exact this (by simp)
    | day m' d' =>
      injection et with _ et
      obtain ⟨e2, e3⟩ := split_dash (deco_no_dash o2 (pad2_all m)) (deco_no_dash o2' (pad2_all m')) (Or.inr ⟨_, rfl⟩) (Or.inr ⟨_, rfl⟩) et
      obtain ⟨rfl, em⟩ := deco_inj o2 o2' (pad2_all m) (pad2_all m') (pad2_ne_nil _) (pad2_ne_nil _) e2
      injection e3 with _ e3
      obtain ⟨rfl, ed⟩ := deco_inj o3 o3' (pad2_all d) (pad2_all d') (pad2_ne_nil _) (pad2_ne_nil _) e3
      have em := pad2_inj h3.1 h3'.1 em
      have ed := pad2_inj h3.2 h3'.2 ed
      subst em ed
      exact ⟨rfl, rfl, rfl, rfl⟩

/-! ### Characters of the written form -/

theorem deco_chars {q : Deco} {x : Str} (hq : q.ok = true) (hx : x.all isDig = true) {c : Char} (h : c ∈ q.text x) :
    isDig c = true ∨ isQ c = true := by
  have hd : ∀ {c}, c ∈ x → isDig c = true := fun h => List.all_eq_true.1 hx _ h
  cases q with
  | none => exact Or.inl (hd h)
  | left q => rcases List.mem_cons.1 h with rfl | h
              · exact Or.inr hq
              · exact Or.inl (hd h)
  | right q => rcases List.mem_append.1 h with h | h
               · exact Or.inl (hd h)
               · have : c = q := by simpa using h
                 subst this; exact Or.inr hq

theorem qtext_chars {x : Date0} (hn : x.neg = false) {qy qm qd : Deco} (hq : Date0.qOk x qy qm qd) {c : Char} (h : c ∈ x.qtext qy qm qd) :
    isDig c = true ∨ isQ c = true ∨ c = '-' := by
  obtain ⟨neg, n, t⟩ := x
  obtain ⟨o1, o2, o3, o4⟩ := hq
  simp only at hn
  subst hn
  have h : c ∈ qy.text (pad4 n) ++ Date0.qtail ⟨false, n, t⟩ qm qd := h
  rcases List.mem_append.1 h with h | h
  · rcases deco_chars o1 (pad4_all n) h with h | h
    · exact Or.inl h
    · exact Or.inr (Or.inl h)
  cases t with
  | none => cases h
  | month m =>
    rcases List.mem_cons.1 h with h | h
    · exact Or.inr (Or.inr h)
    rcases deco_chars o2 (pad2_all m) h with h | h
    · exact Or.inl h
    · exact Or.inr (Or.inl h)
  | day m d =>
    rcases List.mem_cons.1 h with h | h
    · exact Or.inr (Or.inr h)
    rcases List.mem_append.1 h with h | h
    · rcases deco_chars o2 (pad2_all m) h with h | h
      · exact Or.inl h
      · exact Or.inr (Or.inl h)
    rcases List.mem_cons.1 h with h | h
    · exact Or.inr (Or.inr h)
    rcases deco_chars o3 (pad2_all d) h with h | h
    · exact Or.inl h
    · exact Or.inr (Or.inl h)

theorem qtext_not_mem {x : Date0} (hn : x.neg = false) {qy qm qd : Deco} (hq : Date0.qOk x qy qm qd) {c : Char}
    (h1 : isDig c = false) (h2 : isQ c = false) (h3 : c ≠ '-') : c ∉ x.qtext qy qm qd := by
  intro h
  rcases qtext_chars hn hq h with h | h | h
  · rw [h1] at h; cases h
  · rw [h2] at h; cases h
  · exact h3 h

theorem qtext_plain {x : Date0} (hn : x.neg = false) {qy qm qd : Deco} (hq : Date0.qOk x qy qm qd) :
    (x.qtext qy qm qd).all plainC = true := by
  rw [List.all_eq_true]
  intro c hc
  rcases qtext_chars hn hq hc with h | h | h
  · exact List.all_eq_true.1 (plain_digits (s := [c]) (by simp [h])) c (by simp)
  · simp only [isQ, Bool.or_eq_true, beq_iff_eq] at h
    rcases h with (rfl | rfl) | rfl <;> decide
  · subst h; decide

/-! ### What parses -/

theorem yearSpan_yearStr {neg : Bool} {n : Nat} (hn : n < 10000) {y1 y2 : Int} {p : Prec} (h : YearSpan (yearStr neg n) y1 y2 p) :
    y1 = (if neg then -(n : Int) else n) ∧ y2 = (if neg then -(n : Int) else n) ∧ p = Prec.YEAR := by
  generalize e : yearStr neg n = w at h
  cases h with
  | plain neg' n' h' =>
    have := atoi_yearStr neg hn
    rw [e, atoi_yearStr neg' h'] at this
    injection this with this
    exact ⟨this, this, rfl⟩
  | x a b c ha hb hc =>
    exfalso
    cases neg with
    | true => have := congrArg List.length e; simp [yearStr, sgn, pad4] at this
    | false =>
      have : dig (n % 10) = 'X' := by
        have := congrArg (fun l => l.getD 3 'a') e
        simpa [yearStr, sgn, pad4] using this
      exact dig_mod_ne n (by decide) this

theorem monthSpan_pad2 {m m1 m2 : Nat} (hm : m < 100) (h : MonthSpan (pad2 m) m1 m2) : 1 ≤ m ∧ m ≤ 12 ∧ m1 = m ∧ m2 = m := by
  generalize e : pad2 m = w at h
  cases h with
  | none => cases e
  | plain m' h1 h2 =>
    have := pad2_inj hm (by omega) e
    omega
  | xx => exact absurd e (pad2_ne_XX m)
  | dx c h =>
    injection e with _ e
    injection e with e _
    exact absurd e (dig_mod_ne m (by decide))

theorem daySpan_pad2 {d l1 l2 d1 d2 : Nat} (hd : d < 100) (h : DaySpan (pad2 d) l1 l2 d1 d2) :
    (d = 0 ∧ d1 = l1 ∧ d2 = l2) ∨ (1 ≤ d ∧ d1 = d ∧ d2 = d) := by
  have nx : ∀ c, pad2 d ≠ [c, 'X'] := by
    intro c e
    injection e with _ e
    injection e with e _
    exact absurd e (dig_mod_ne d (by decide))
  generalize e : pad2 d = w at h
  cases h with
  | none => cases e
  | plain _ _ d' h1 h2 =>
    have := pad2_inj hd (by omega) e
    omega
  | zero =>
    have := pad2_inj hd (by omega) e
    omega
  | xx => exact absurd e (nx _)
  | x1 => exact absurd e (nx _)
  | x2 => exact absurd e (nx _)
  | x3 => exact absurd e (nx _)

theorem comp_inj {a : Comp} {r : Re} {q : Deco} {x : Str} (hr : ∀ w, Lang r w → isComp w) (ha : a.okFor r) (hq : q.ok = true)
    (hx : x.all isDig = true) (hn : x ≠ []) (e : a.text = q.text x) : a.q = q ∧ a.x = x :=
  deco_inj' ha.1 hq (isComp_notQ (hr _ ha.2)) (digits_notQ hx) (isComp_ne_nil (hr _ ha.2)) hn e

/-- The form read from the text of a date is the written one. -/
theorem form_qtext {x : Date0} {qy qm qd : Deco} (hq : Date0.qOk x qy qm qd) {F : YMDForm} (hF : F.ok) (e : x.qtext qy qm qd = F.text) :
    F = Date0.form x qy qm qd := by
  obtain ⟨neg, n, t⟩ := x
  obtain ⟨o1, o2, o3, o4⟩ := hq
  have hm : ∀ w, Lang Rx.monthX w → isComp w := fun w h => Or.inr (Or.inl h)
  have hd : ∀ w, Lang Rx.dayX w → isComp w := fun w h => Or.inr (Or.inr h)
  have hyc : ∀ {a : Comp}, a.okFor Rx.yearX → a.text = qy.text (yearStr neg n) → a = ⟨yearStr neg n, qy⟩ := by
    intro a ha e
    have := deco_inj' ha.1 o1 (isComp_notQ (Or.inl ha.2)) (isComp_notQ (Or.inl (lang_yearStr neg n))) (isComp_ne_nil (Or.inl ha.2))
      (yearStr_ne_nil neg n) e
    obtain ⟨ax, aq⟩ := a
    simp only at this
    rw [this.1, this.2]
  have e : qy.text (yearStr neg n) ++ Date0.qtail ⟨neg, n, t⟩ qm qd = F.text := by
    rw [← e]; rfl
  rw [YMDForm.text_eq] at e
  have dt : DashTail (Date0.qtail ⟨neg, n, t⟩ qm qd) := by
    cases t with
    | none => exact Or.inl rfl
    | month m => exact Or.inr ⟨_, rfl⟩
    | day m d => exact Or.inr ⟨_, rfl⟩
  obtain ⟨ey, et⟩ := split_year (a := ⟨yearStr neg n, qy⟩) (a' := F.yc) ⟨o1, lang_yearStr neg n⟩ (YMDForm.yc_ok hF) dt (YMDForm.tail_dash F) e
  have eyc := hyc (YMDForm.yc_ok hF) ey.symm
  clear ey
  cases t with
  | none =>
    cases F with
    | y a => simp only [YMDForm.yc] at eyc; rw [eyc]; rfl
    | ym a b => cases et
    | ymd a b c => cases et
  | month m =>
    cases F with
    | y a => cases et
    | ym a b =>
      simp only [YMDForm.yc] at eyc
      injection et with _ et
      obtain ⟨e1, e2⟩ := comp_inj hm hF.2 o2 (pad2_all m) (pad2_ne_nil m) et.symm
      obtain ⟨bx, bq⟩ := b
      simp only at e1 e2
      rw [eyc, e1, e2]; rfl
    | ymd a b c =>
      exfalso
      injection et with _ et
      have := deco_no_dash o2 (pad2_all m)
      rw [et] at this
      exact this (by simp)
  | day m d =>
    cases F with
    | y a => cases et
    | ym a b =>
      exfalso
      injection et with _ et
      have := (comp2_dash (fun w h => lang_monthX_DX h) hF.2).1
      rw [← et] at this
      exact this (by simp)
    | ymd a b c =>
      simp only [YMDForm.yc] at eyc
      injection et with _ et
      obtain ⟨em, ed⟩ := split_dash (deco_no_dash o2 (pad2_all m)) (comp2_dash (fun w h => lang_monthX_DX h) hF.2.1).1
        (Or.inr ⟨_, rfl⟩) (Or.inr ⟨_, rfl⟩) et
      injection ed with _ ed
      obtain ⟨e1, e2⟩ := comp_inj hm hF.2.1 o2 (pad2_all m) (pad2_ne_nil m) em.symm
      obtain ⟨e3, e4⟩ := comp_inj hd hF.2.2 o3 (pad2_all d) (pad2_ne_nil d) ed.symm
      obtain ⟨bx, bq⟩ := b
      obtain ⟨cx, cq⟩ := c
      simp only at e1 e2 e3 e4
      rw [eyc, e1, e2, e3, e4]; rfl

/-- A written date of digits parses only if it exists, or has the day 00. -/
theorem dateSpan_wide {x : Date0} (hx : Date0.wide x) {qy qm qd : Deco} (hq : Date0.qOk x qy qm qd) {sp : DateSpan}
    (h : dateSpanFromYMD (x.qtext qy qm qd) = .ok sp) :
    x.ok ∨ ∃ m, 1 ≤ m ∧ m ≤ 12 ∧ x.tail = .day m 0 ∧
      sp = spanRec (x.qtext qy qm qd) x.value m (monthLen x.value m) x.value m (monthLen x.value m) true
        (marked saysUncertain qy qm qd) (marked saysApproximate qy qm qd) Prec.YEAR := by
  obtain ⟨F, y1, y2, m1, m2, d1, d2, py, hF, e, hY, hM, hD, v1, v2, hsp⟩ := dateSpan_inv h
  have := form_qtext hq hF e
  subst this
  obtain ⟨neg, n, t⟩ := x
  obtain ⟨h1, h2, h3⟩ := hx
  simp only at h1 h2
  subst h1
  cases t with
  | none => exact Or.inl ⟨h2, trivial⟩
  | month m =>
    obtain ⟨a, b, -, -⟩ := monthSpan_pad2 h3 hM
    exact Or.inl ⟨h2, a, b⟩
  | day m d =>
    obtain ⟨a, b, rfl, rfl⟩ := monthSpan_pad2 h3.1 hM
    obtain ⟨rfl, rfl, rfl⟩ := yearSpan_yearStr (neg := false) h2 hY
    rcases daySpan_pad2 h3.2 hD with ⟨rfl, rfl, rfl⟩ | ⟨c, rfl, rfl⟩
    · refine Or.inr ⟨m2, a, b, rfl, ?_⟩
      rw [hsp]
      have : sameDay (if false = true then -(n : Int) else n) m2 (monthLen (if false = true then -(n : Int) else n) m2)
        (if false = true then -(n : Int) else n) m2 (monthLen (if false = true then -(n : Int) else n) m2) = true := by simp [sameDay]
      rw [this]
      have hp : datePrec Prec.YEAR (YMDForm.mx (Date0.form ⟨false, n, .day m2 0⟩ qy qm qd)) (YMDForm.dx (Date0.form ⟨false, n, .day m2 0⟩ qy qm qd)) = Prec.YEAR := by
        simp only [Date0.form, YMDForm.mx, YMDForm.dx]
        unfold datePrec
        rw [if_neg (fun h => pad2_ne_XX _ h.1), if_neg (pad2_ne_XX 0), if_neg (fun h => ?_)]
        rcases h with h | h <;>
        · injection h with _ h
          injection h with h _
          exact absurd h (dig_mod_ne m2 (by decide))
      rw [hp]
      rfl
    · exact Or.inl ⟨h2, v1⟩

end EDTF
