/- C93: capital and small letters. -/
import Verif.LemmasCase
namespace EDTF
open Spec
variable {f : Int → Nat → Nat → Int}

theorem result_of {d e : EDTFDate} {l u : Int} (h : Timed d l u) (k : Timed e l u) (h1 : d.level = e.level) (h2 : d.feature = e.feature) : SameResult d e :=
  ⟨timed_same h k, h1, h2⟩

theorem timed_years {a b : Date0} {s k : Str} {n : Int} {p q : Str} :
    Timed ⟨some (a.range f p 0 0 Prec.YEAR), some (b.range f q 0 0 Prec.YEAR), s, n, k⟩ (firstSecond f a) (lastSecond f b) :=
  ⟨⟨_, ⟨_, rfl, rfl⟩, ts_start .., rfl, rfl⟩, _, ⟨_, rfl, rfl⟩, ts_end .., rfl, rfl⟩

theorem power_sig {yc ec : Char} {neg : Bool} {a b c : Str} :
    yc :: signed neg (a ++ ec :: b) ++ 'S' :: c = yc :: signed neg (a ++ ec :: (b ++ 'S' :: c)) := by
  cases neg <;> simp [signed]

theorem signed_append {neg : Bool} {a b : Str} : signed neg (a ++ b) = signed neg a ++ b := by cases neg <;> rfl

theorem bland_map {ds : List Nat} (h : Digits ds) : ∀ c ∈ ds.map dig, Bland c := by
  intro c hc
  obtain ⟨d, hd, rfl⟩ := List.mem_map.1 hc
  exact bland_digit ((isDig_iff _).2 ⟨d, h.2 d hd, rfl⟩)

/-- The texts alike a year with an exponent. -/
theorem alike_power {yc ec : Char} {neg : Bool} {ms : List Nat} (hm : Digits ms) (hy : yc ∈ c! "Yy") (he : ec ∈ c! "Ee") {u t : Str}
    (h : Alike (yc :: signed neg (ms.map dig ++ ec :: u)) t) :
    ∃ yc' ec' u', yc' ∈ c! "Yy" ∧ ec' ∈ c! "Ee" ∧ Alike u u' ∧ t = yc' :: signed neg (ms.map dig ++ ec' :: u') := by
  obtain ⟨y', t, rfl, h1, k1⟩ := alike_cons h
  rw [signed_append] at k1
  obtain ⟨a, t, rfl, h2, k2⟩ := alike_append k1
  obtain ⟨e', v, rfl, h3, k⟩ := alike_cons k2
  have e2 := alike_plain h2 (bland_signed (bland_map hm))
  subst e2
  exact ⟨y', e', v, like_of h1 (by decide) hy, like_of h3 (by decide) he, k, by rw [signed_append]⟩

/-- Which texts may exchange letters. -/
theorem case_class {s : Str} {d : EDTFDate} (h : Denotes f s d) :
    Rigid s ∨
    (Unbounded.seasonName.Has s ∧ ∀ t, Alike s t → ∃ e, Denotes f t e ∧ SameResult d e) ∨
    (Unbounded.exponent.Has s ∧ 's' ∉ s ∧ ∀ t, Alike s t → 's' ∉ t → ∃ e, Denotes f t e ∧ SameResult d e) ∨
    (UnknownDay s ∧ ∀ t, Alike s t → ∃ e, Denotes f t e ∧ SameResult d e) := by
  have dateX : ∀ x : Date0, 'X' ∉ x.text := fun x => (unm_date x) _ (by decide)
  have xs : ∀ {neg : Bool} {n : Nat}, Unmarked (signed neg (pad4 n)) := fun {_ n} => unm_signed (unm_pad n).1
  cases h with
  | unknown => exact .inl (rigid_of firm_nil (by decide))
  | opened => exact .inl (rigid_of (firm_dots (.inr rfl)) (by decide))
  | date x h => exact .inl (rigid_of (firm_date x) (dateX x))
  | time neg y m d hh mi ss z hy V k1 k2 k3 hz =>
    have hzz : Firm z.text ∧ Unmarked z.text := by
      cases z with
      | none => exact ⟨firm_nil, unm_nil⟩
      | utc => exact ⟨firm_cons (by decide) firm_nil, unm_cons (by decide) unm_nil⟩
      | hours b a => exact ⟨firm_cons (by cases b <;> decide) (firm_pad a).2, unm_cons (by cases b <;> decide) (unm_pad a).2⟩
      | full b a c =>
        exact ⟨firm_cons (by cases b <;> decide) (firm_append (firm_pad a).2 (firm_cons (by decide) (firm_pad c).2)),
          unm_cons (by cases b <;> decide) (unm_append (unm_pad a).2 (unm_cons (by decide) (unm_pad c).2))⟩
    refine .inl (rigid_of ?_ ?_)
    · have one : ∀ {x : Char}, x ∉ soft → Firm [x] := fun h => firm_cons h firm_nil
      unfold clockText hmsText
      refine firm_append ?_ ?_
      · cases neg
        · exact firm_nil
        · exact one (by decide)
      · have p2 := fun n => (firm_pad n).2
        exact firm_append (firm_append (firm_append (firm_append (firm_append (firm_append (firm_append (firm_pad y).1 (one (by decide))) (p2 m)) (one (by decide))) (p2 d))
          (one (by decide))) (firm_append (firm_append (firm_append (firm_append (p2 hh) (one (by decide))) (p2 mi)) (one (by decide))) (p2 ss))) hzz.1
    · refine (?_ : Unmarked _) _ (by decide)
      have one : ∀ {x : Char}, x ∉ c! "X?~%" → Unmarked [x] := fun h => unm_cons h unm_nil
      unfold clockText hmsText
      refine unm_append ?_ ?_
      · cases neg
        · exact unm_nil
        · exact one (by decide)
      · have p2 := fun n => (unm_pad n).2
        exact unm_append (unm_append (unm_append (unm_append (unm_append (unm_append (unm_append (unm_pad y).1 (one (by decide))) (p2 m)) (one (by decide))) (p2 d))
          (one (by decide))) (unm_append (unm_append (unm_append (unm_append (p2 hh) (one (by decide))) (p2 mi)) (one (by decide))) (p2 ss))) hzz.2
  | interval a b ha hb ra rb =>
    exact .inl ⟨firm_append (firm_endpoint ha) (firm_cons (by decide) (firm_endpoint hb)), fun u =>
      absurd (unknown_mem u (c := '/') (by simp)) (by decide)⟩
  | startless l hl x h =>
    have hl : l.text = [] ∨ l.text = c! ".." := hl.elim (fun e => .inr (by rw [e]; rfl)) (fun e => .inl (by rw [e]; rfl))
    exact .inl ⟨firm_append (firm_dots hl) (firm_cons (by decide) (firm_date x)), fun u => absurd (unknown_mem u (c := '/') (by simp)) (by decide)⟩
  | endless neg n h r hr =>
    have hr : r.text = [] ∨ r.text = c! ".." := hr.elim (fun e => .inr (by rw [e]; rfl)) (fun e => .inl (by rw [e]; rfl))
    exact .inl ⟨firm_append (firm_date _) (firm_cons (by decide) (firm_dots hr)), fun u => absurd (unknown_mem u (c := '/') (by simp)) (by decide)⟩
  | qualifiedYear neg n h q hq =>
    exact .inl ⟨firm_append (firm_date _) (firm_cons (firm_q hq) firm_nil), fun u =>
      absurd (unknown_mem u (c := q) (by simp)) ((by decide : ∀ c ∈ c! "?~%", c ∉ c! "0123456789-Xx") q hq)⟩
  | group e h hn hX hl he S E hs => exact .inl (rigid_of (firm_endpoint h) hX)
  | individual e h hn hX hr hl S E hs => exact .inl (rigid_of (firm_endpoint h) hX)
  | unspecified x h hn hX S E hs =>
    have hsh : (⟨x, .none, .none, .none⟩ : Endpoint).shape ∧ (⟨x, .none, .none, .none⟩ : Endpoint).text = x.text := by
      obtain ⟨neg, yr, tl⟩ := x
      cases tl <;> cases neg <;> exact ⟨⟨h, by simp [Deco.ok]⟩, by simp [Endpoint.text, XDate.text, Deco.text]⟩
    refine .inl ⟨hsh.2 ▸ firm_endpoint hsh.1, fun u => ?_⟩
    obtain ⟨n, m, a, b, e, -⟩ := u
    obtain ⟨neg, yr, tl⟩ := x
    simp only at hn
    subst hn
    obtain ⟨hl, -, ht⟩ := h
    simp only [XDate.text, Bool.false_eq_true, if_false, List.nil_append] at e
    obtain ⟨e1, e2⟩ := List.append_inj e (by rw [pad4_length]; exact hl)
    have np := (unm_pad n).1 'X' (by decide)
    have mp := (unm_pad m).2 'X' (by decide)
    rcases hX with hX | hX
    · simp only at hX; rw [e1] at hX; exact np hX
    · cases tl with
      | none => cases hX
      | month p => 
        have := congrArg List.length e2
        have := ht.1
        simp at *
        omega
      | day p q =>
        obtain ⟨e3, -⟩ := List.append_inj (List.cons.inj e2).2 (by exact ht.1)
        simp only [XDate.mx] at hX
        rw [e3] at hX
        exact mp hX
  | month neg n m hn h1 h2 y hv hy t ht =>
    have ns : ∀ {u : Str}, Firm u → Firm (signed neg (pad4 n) ++ '-' :: (pad2 m ++ u)) := fun hu =>
      firm_append (firm_signed (firm_pad n).1) (firm_cons (by decide) (firm_append (firm_pad m).2 hu))
    have xn : ∀ {u : Str}, 'X' ∉ u → 'X' ∉ signed neg (pad4 n) ++ '-' :: (pad2 m ++ u) := by
      intro u hu hm
      rcases List.mem_append.1 hm with hm | hm
      · exact xs _ (by decide) hm
      rcases List.mem_cons.1 hm with hm | hm
      · cases hm
      rcases List.mem_append.1 hm with hm | hm
      · exact (unm_pad m).2 _ (by decide) hm
      · exact hu hm
    have xq : ∀ {q : Char}, q ∈ c! "?~%" → q ≠ 'X' := fun hq => (by decide : ∀ q ∈ c! "?~%", q ≠ 'X') _ hq
    cases ht with
    | qualifier _ q hq => exact .inl (rigid_of (ns (firm_cons (firm_q hq) firm_nil)) (xn (by simp; exact (xq hq).symm)))
    | dayQualifier _ d d1 d2 q hq =>
      refine .inl (rigid_of (ns (firm_cons (by decide) (firm_append (firm_pad d).2 (firm_cons (firm_q hq) firm_nil)))) (xn ?_))
      have := (unm_pad d).2 'X' (by decide)
      simp [this, (xq hq).symm]
    | ended _ t ht =>
      refine .inl (rigid_of (ns (firm_cons (by decide) (firm_dots ht))) (xn ?_))
      rcases ht with rfl | rfl <;> decide
    | dayEnded _ d d1 d2 t ht =>
      refine .inl (rigid_of (ns (firm_cons (by decide) (firm_append (firm_pad d).2 (firm_cons (by decide) (firm_dots ht))))) (xn ?_))
      have := (unm_pad d).2 'X' (by decide)
      rcases ht with rfl | rfl <;> simp [this]
    | loose a b h =>
      refine .inr (.inr (.inr ⟨⟨n, m, a, b, rfl, (loose_chars h).1, (loose_chars h).2, h.2⟩, fun t k => ?_⟩))
      obtain ⟨u, v, rfl, k1, k⟩ := alike_append k
      obtain ⟨x, v, rfl, k2, k⟩ := alike_cons k
      obtain ⟨w, v, rfl, k3, k⟩ := alike_append k
      obtain ⟨y', v, rfl, k4, k⟩ := alike_cons k
      obtain ⟨a', v, rfl, k5, k⟩ := alike_cons k
      obtain ⟨b', v, rfl, k6, k⟩ := alike_cons k
      cases k
      cases alike_plain k1 (bland_signed (bland_digits (pad4_all n)))
      cases alike_plain k3 (bland_digits (pad2_all m))
      cases like_plain k2 (bland_dec (by decide))
      cases like_plain k4 (bland_dec (by decide))
      exact ⟨_, .month false n m hn h1 h2 y hv hy _ (.loose a' b' (loose_like h k5 k6)), result_of timed_months timed_months rfl rfl⟩
  | season neg n hn z y hv hy hz =>
    refine .inl (rigid_of (firm_append (firm_signed (firm_pad n).1) (firm_cons (by decide) (firm_pad _).2)) ?_)
    exact (unm_append xs (unm_cons (by decide) (unm_pad _).2)) _ (by decide)
  | seasonName z w t1 t2 n hw h1 h2 hn hz =>
    refine .inr (.inl ⟨⟨z, w, t1, _, hw, h1, rfl⟩, fun t k => ?_⟩)
    have bb : ∀ {t : Str}, Blank t → ∀ c ∈ t, Bland c := by
      intro t ht c hc
      rcases ht c hc with rfl | rfl | rfl | rfl | rfl <;> exact bland_dec (by decide)
    obtain ⟨w', u, rfl, k1, k⟩ := alike_append k
    have : t1 ++ ',' :: (t2 ++ pad4 n) = u := alike_plain k (by
      intro c hc
      rcases List.mem_append.1 hc with hc | hc
      · exact bb h1 c hc
      rcases List.mem_cons.1 hc with rfl | hc
      · exact bland_dec (by decide)
      rcases List.mem_append.1 hc with hc | hc
      · exact bb h2 c hc
      · exact bland_digits (pad4_all n) c hc)
    subst this
    exact ⟨_, .seasonName z w' t1 t2 n (folded_alike (word_small z) hw k1) h1 h2 hn hz, result_of timed_months timed_months rfl rfl⟩
  | letter neg n h =>
    exact .inl (rigid_of (firm_cons (by decide) (firm_date _)) (by
      intro hm
      rcases List.mem_cons.1 hm with hm | hm
      · cases hm
      · exact dateX _ hm))
  | exponential yc ec hy he neg ms es hm hes b n h1 h2 hv =>
    refine .inr (.inr (.inl ⟨⟨yc, ec, signed neg (ms.map dig), es.map dig, hy, he, by rw [signed_append]⟩, ?_, fun t k _ => ?_⟩))
    · intro hs
      rw [signed_append] at hs
      rcases List.mem_cons.1 hs with rfl | hs
      · exact absurd hy (by decide)
      rcases List.mem_append.1 hs with hs | hs
      · exact firm_signed (firm_map hm) _ (by decide) hs
      rcases List.mem_cons.1 hs with rfl | hs
      · exact absurd he (by decide)
      · exact firm_map hes _ (by decide) hs
    · obtain ⟨y', e', u, hy', he', hu, rfl⟩ := alike_power hm hy he k
      cases alike_plain hu (bland_map hes)
      exact ⟨_, .exponential y' e' hy' he' neg ms es hm hes b n h1 h2 hv, result_of timed_result timed_result rfl rfl⟩
  | significant t v h ds hd a b hk =>
    have fd : Firm ('S' :: ds.map dig) := firm_cons (by decide) (firm_map hd)
    have ud : Unmarked ('S' :: ds.map dig) := unm_cons (by decide) (unm_map hd)
    cases h with
    | date neg n h => exact .inl (rigid_of (firm_append (firm_signed (firm_pad n).1) fd) ((unm_append xs ud) _ (by decide)))
    | letter neg us hu hl =>
      exact .inl (rigid_of (firm_append (firm_cons (by decide) (firm_signed (firm_map hu))) fd)
        ((unm_append (unm_cons (by decide) (unm_signed (unm_map hu))) ud) _ (by decide)))
    | exponential yc ec hy he neg ms es hm hes _ hv =>
      refine .inr (.inr (.inl ⟨⟨yc, ec, signed neg (ms.map dig), es.map dig ++ 'S' :: ds.map dig, hy, he, by rw [signed_append]; simp⟩, ?_, fun t k hs => ?_⟩))
      · intro hs
        rw [signed_append] at hs
        rcases List.mem_append.1 hs with hs | hs
        · rcases List.mem_cons.1 hs with rfl | hs
          · exact absurd hy (by decide)
          rcases List.mem_append.1 hs with hs | hs
          · exact firm_signed (firm_map hm) _ (by decide) hs
          rcases List.mem_cons.1 hs with rfl | hs
          · exact absurd he (by decide)
          · exact firm_map hes _ (by decide) hs
        · exact fd _ (by decide) hs
      · rw [power_sig] at k
        obtain ⟨y', e', u, hy', he', hu, rfl⟩ := alike_power hm hy he k
        obtain ⟨g, u, rfl, hg, hv'⟩ := alike_append hu
        obtain ⟨x, v', rfl, hx, hw⟩ := alike_cons hv'
        have e1 := alike_plain hg (bland_map hes)
        have e2 := alike_plain hw (bland_map hd)
        subst e1 e2
        have hx : x = 'S' := by
          have : x ∈ c! "Ss" := like_of hx (by decide) (by decide)
          rcases List.mem_cons.1 this with k | k
          · exact k
          · rw [List.mem_singleton.1 k] at hs
            exact absurd (by rw [signed_append]; simp) hs
        subst hx
        rw [← power_sig]
        exact ⟨_, .significant _ v (.exponential y' e' hy' he' neg ms es hm hes v hv) ds hd a b hk, result_of timed_years timed_years rfl rfl⟩
  | grouping n hn g hg =>
    exact .inl (rigid_of (firm_append (firm_pad n).1 (firm_cons (by decide) (firm_pad _).2))
      ((unm_append (unm_pad n).1 (unm_cons (by decide) (unm_pad _).2)) _ (by decide)))
  | set o c hb cs hc S E hm =>
    have h1 : o ∉ soft := by rcases hb.1 with rfl | rfl <;> decide
    have h2 : c ∉ soft := by rcases hb.2 with rfl | rfl <;> decide
    have h3 : o ∉ c! "X?~%" := by rcases hb.1 with rfl | rfl <;> decide
    have h4 : c ∉ c! "X?~%" := by rcases hb.2 with rfl | rfl <;> decide
    exact .inl (rigid_of (firm_cons h1 (firm_append (firm_join cs) (firm_cons h2 firm_nil)))
      ((unm_cons h3 (unm_append (unm_join cs) (unm_cons h4 unm_nil))) _ (by decide)))

theorem rigid_kinds {s : Str} (h : Rigid s) : ¬ Unbounded.seasonName.Has s ∧ ¬ Unbounded.exponent.Has s := by
  constructor
  · rintro ⟨z, w, t, u, hw, -, rfl⟩
    exact word_soft hw (alike_refl w) (fun c hc k => h.1 c hc (by simp [k]))
  · rintro ⟨y, e, a, b, -, he, rfl⟩
    exact h.1 e ((by decide : ∀ e ∈ c! "Ee", e ∈ soft) e he) (by simp)

theorem alike_name {s t : Str} (h : Unbounded.seasonName.Has s) (k : Alike s t) : Unbounded.seasonName.Has t := by
  obtain ⟨z, w, b, u, hw, hb, rfl⟩ := h
  obtain ⟨w', v, rfl, k1, k2⟩ := alike_append k
  obtain ⟨b', v, rfl, k3, k4⟩ := alike_append k2
  obtain ⟨x, u', rfl, k5, k6⟩ := alike_cons k4
  have e1 := alike_plain k3 (fun c hc => by rcases hb c hc with rfl | rfl | rfl | rfl | rfl <;> exact bland_dec (by decide))
  have e2 := like_plain k5 (bland_dec (by decide))
  subst e1 e2
  exact ⟨z, w', b, u', folded_alike (word_small z) hw k1, hb, rfl⟩

theorem alike_exponent {s t : Str} (h : Unbounded.exponent.Has s) (k : Alike s t) : Unbounded.exponent.Has t := by
  obtain ⟨y, e, a, b, hy, he, rfl⟩ := h
  obtain ⟨y', v, rfl, k1, k2⟩ := alike_cons k
  obtain ⟨a', v, rfl, k3, k4⟩ := alike_append k2
  obtain ⟨e', b', rfl, k5, k6⟩ := alike_cons k4
  exact ⟨y', e', a', b', like_of k1 (by decide) hy, like_of k5 (by decide) he, rfl⟩

/-- The three kinds exclude one another. -/
theorem name_exponent {s : Str} (h : Unbounded.seasonName.Has s) (k : Unbounded.exponent.Has s) : False := by
  obtain ⟨z, w, t, u, hw, -, rfl⟩ := h
  obtain ⟨y, e, a, b, hy, -, e⟩ := k
  obtain ⟨c, v, rfl, hc⟩ := word_head hw
  injection e with e
  subst e
  exact (by decide : ∀ c ∈ c! "SsFfWwſ", c ∉ c! "Yy") c hc hy

theorem unknown_exponent {s : Str} (h : UnknownDay s) (k : Unbounded.exponent.Has s) : False := by
  obtain ⟨y, e, a, b, hy, -, rfl⟩ := k
  exact (by decide : ∀ c ∈ c! "Yy", c ∉ c! "0123456789-Xx") y hy (unknown_mem h (by simp))

/-- C93, which letters may be exchanged: those of the name of a season, the two letters of a year
with an exponent, and the signs of unspecified digits in a day after digits.  An 'S' may not. -/
theorem C93_exact {s t : Str} {d : EDTFDate} (hs : parseString s = .ok d) (h : Alike s t) :
    (∃ e, parseString t = .ok e) ↔
      s = t ∨ Unbounded.seasonName.Has s ∨ (Unbounded.exponent.Has s ∧ 's' ∉ t) ∨ UnknownDay s := by
  obtain ⟨f, hf⟩ : ∃ f : Int → Nat → Nat → Int, DayCount f := ⟨_, dayCount_unixDay⟩
  have hd := (C55_denotes hf _ _).1 hs
  constructor
  · rintro ⟨e, he⟩
    have he := (C55_denotes hf _ _).1 he
    rcases case_class hd with k | k | k | k
    · have rs := rigid_kinds k
      rcases case_class he with l | l | l | l
      · exact .inl (firm_alike h k.1 l.1)
      · exact absurd (alike_name l.1 (alike_symm h)) rs.1
      · exact absurd (alike_exponent l.1 (alike_symm h)) rs.2
      · exact absurd (unknown_alike l.1 (alike_symm h)) k.2
    · exact .inr (.inl k.1)
    · refine .inr (.inr (.inl ⟨k.1, ?_⟩))
      have kt := alike_exponent k.1 h
      rcases case_class he with l | l | l | l
      · exact absurd kt (rigid_kinds l).2
      · exact (name_exponent l.1 kt).elim
      · exact l.2.1
      · exact (unknown_exponent l.1 kt).elim
    · exact .inr (.inr (.inr k.1))
  · have fin : (∃ e, Denotes f t e ∧ SameResult d e) → ∃ e, parseString t = .ok e := fun ⟨e, he, _⟩ => ⟨e, (C55_denotes hf _ _).2 he⟩
    rintro (rfl | hk | ⟨hk, hk'⟩ | hk)
    · exact ⟨d, hs⟩
    · rcases case_class hd with k | k | k | k
      · exact absurd hk (rigid_kinds k).1
      · exact fin (k.2 t h)
      · exact (name_exponent hk k.1).elim
      · exact fin (k.2 t h)
    · rcases case_class hd with k | k | k | k
      · exact absurd hk (rigid_kinds k).2
      · exact fin (k.2 t h)
      · exact fin (k.2.2 t h hk')
      · exact fin (k.2 t h)
    · rcases case_class hd with k | k | k | k
      · exact absurd hk k.2
      · exact fin (k.2 t h)
      · exact (unknown_exponent hk k.1).elim
      · exact fin (k.2 t h)

example : ∃ d, parseString (c! "Summer, 1985") = .ok d := ⟨_, rfl⟩
example : ∃ e, parseString (c! "sUMMER, 1985") = .ok e :=
  (C93_exact (s := c! "Summer, 1985") (d := _) rfl (.big ⟨18, by decide, rfl, rfl⟩ (.small ⟨20, by decide, rfl, rfl⟩ (.small ⟨12, by decide, rfl, rfl⟩
    (.small ⟨12, by decide, rfl, rfl⟩ (.small ⟨4, by decide, rfl, rfl⟩ (.small ⟨17, by decide, rfl, rfl⟩ (alike_refl (c! ", 1985"))))))))).2
    (.inr (.inl ⟨.summer, c! "Summer", [], c! " 1985", by decide, by decide, rfl⟩))
example : ¬ ∃ e, parseString (c! "1985-x1") = .ok e := fun ⟨_, h⟩ => by cases h
/-- The letter of a year of four digits may not be small, that of a year with an exponent may. -/
example : (∃ d, parseString (c! "Y1985") = .ok d) ∧ (∃ d, parseString (c! "Y17E2") = .ok d) ∧ (∃ d, parseString (c! "y17e2") = .ok d) ∧
    ¬ ∃ d, parseString (c! "y1985") = .ok d := by
  have acc : ∀ yc ∈ c! "Yy", ∀ ec ∈ c! "Ee", ∃ d, parseString (yc :: '1' :: '7' :: ec :: c! "2") = .ok d := fun yc hy ec he =>
    (C54_language _).2 (.exponential yc ec hy he false [1, 7] [2] ⟨by simp, by decide⟩ ⟨by simp, by decide⟩ 1700
      ⟨by decide, by decide, by decide, 1700, .inl (by decide), by decide⟩ (by decide))
  refine ⟨⟨_, rfl⟩, acc 'Y' (by decide) 'E' (by decide), acc 'y' (by decide) 'e' (by decide), fun hd => ?_⟩
  have h : Alike (c! "Y1985") (c! "y1985") := .big ⟨24, by decide, rfl, rfl⟩ (alike_refl _)
  rcases (C93_exact (d := _) rfl h).1 hd with k | ⟨z, w, t, u, hw, -, k⟩ | ⟨⟨y, e, a, b, -, he, k⟩, -⟩ | k
  · exact absurd k (by decide)
  · exact absurd (show ',' ∈ c! "Y1985" by rw [k]; simp) (by decide)
  · exact absurd (show e ∈ c! "Y1985" by rw [k]; simp) ((by decide : ∀ e ∈ c! "Ee", e ∉ c! "Y1985") e he)
  · exact absurd (unknown_mem k (c := 'Y') (by simp)) (by decide)

/-- C93, letters that may be exchanged mean the same: accepted texts that differ in capital and
small letters only have the same time, the same level and the same feature. -/
theorem C93_same {s t : Str} {d e : EDTFDate} (hs : parseString s = .ok d) (ht : parseString t = .ok e) (h : Alike s t) : SameResult d e := by
  obtain ⟨f, hf⟩ : ∃ f : Int → Nat → Nat → Int, DayCount f := ⟨_, dayCount_unixDay⟩
  have hd := (C55_denotes hf _ _).1 hs
  have fin : (∃ g, Denotes f t g ∧ SameResult d g) → SameResult d e := fun ⟨g, hg, k⟩ => by
    have := (C55_denotes hf _ _).2 hg
    rw [ht] at this
    injection this with this
    exact this ▸ k
  have hx := (C93_exact hs h).1 ⟨e, ht⟩
  rcases case_class hd with k | k | k | k
  · have rs := rigid_kinds k
    rcases hx with rfl | hx | ⟨hx, -⟩ | hx
    · rw [hs] at ht
      injection ht with ht
      subst ht
      obtain ⟨a, b, sl, su, el, eu, h1, h2, -⟩ := C31_wellformed dayCount_unixDay hs
      exact ⟨⟨⟨sl, sl, ⟨_, h1, rfl⟩, ⟨_, h1, rfl⟩, rfl, rfl, rfl⟩, eu, eu, ⟨_, h2, rfl⟩, ⟨_, h2, rfl⟩, rfl, rfl, rfl⟩, rfl, rfl⟩
    · exact absurd hx rs.1
    · exact absurd hx rs.2
    · exact absurd hx k.2
  · exact fin (k.2 t h)
  · refine fin (k.2.2 t h ?_)
    rcases hx with rfl | hx | ⟨hx, hn⟩ | hx
    · exact k.2.1
    · exact (name_exponent hx k.1).elim
    · exact hn
    · exact (unknown_exponent hx k.1).elim
  · exact fin (k.2 t h)

example : ∃ d e, parseString (c! "1985-04-1X") = .ok d ∧ parseString (c! "1985-04-1x") = .ok e ∧ SameResult d e := by
  have h : Alike (c! "1985-04-1X") (c! "1985-04-1x") :=
    .same _ (.same _ (.same _ (.same _ (.same _ (.same _ (.same _ (.same _ (.same _ (.big ⟨23, by decide, rfl, rfl⟩ .nil)))))))))
  have hu : UnknownDay (c! "1985-04-1X") := ⟨1985, 4, '1', 'X', rfl, by decide, by decide, by decide⟩
  obtain ⟨d, hd⟩ : ∃ d, parseString (c! "1985-04-1X") = .ok d := ⟨_, rfl⟩
  obtain ⟨e, he⟩ := (C93_exact hd h).2 (.inr (.inr (.inr hu)))
  exact ⟨d, e, hd, he, C93_same hd he h⟩

end EDTF
