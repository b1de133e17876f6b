/- For C87: expressions with unspecified digits, and intervals of Level 2. -/
import Verif.LemmasStandard4
import Verif.LemmasAcc
namespace EDTF
open Spec
variable {f : Int → Nat → Nat → Int}

theorem plain_shape {x : XDate} (h : x.ok) : (⟨x, .none, .none, .none⟩ : Endpoint).shape := ⟨h, rfl, rfl, rfl, by cases x.tail <;> simp⟩

theorem marked_plain (p : Char → Bool) : marked p .none .none .none = 0 := by
  simp only [marked, Deco.isLeft, Deco.isRight, Bool.or_self, Bool.false_eq_true, if_false]
  decide

theorem is_dawn_e {t : Int} {u a i : Prec} {e : Endpoint} {y : Int} {m d : Nat} :
    (Limit.second t u a i).Is (e.dawn f y m d) ↔
      t = 86400 * f y m d ∧ u = marked saysUncertain e.qy e.qm e.qd ∧ a = marked saysApproximate e.qy e.qm e.qd ∧ i = 0 := is_dawn
theorem is_dusk_e {t : Int} {u a i : Prec} {e : Endpoint} {y : Int} {m d : Nat} :
    (Limit.second t u a i).Is (e.dusk f y m d) ↔
      t = 86400 * f y m d + 86399 ∧ u = marked saysUncertain e.qy e.qm e.qd ∧ a = marked saysApproximate e.qy e.qm e.qd ∧ i = 0 := is_dusk

/-! ### Unspecified digits in year or month -/

theorem verdict_digits_wide (hf : DayCount f) {x : XDate} (h : (Term.digits x).ok) (hX : 'X' ∈ x.year ∨ 'X' ∈ x.mx) : Verdict f (.digits x) := by
  obtain ⟨ho, hn, hx, hr⟩ := h
  have hu := understood_iff ho hn hr
  have hS : (Term.digits x).Supported ↔ x.Understood := by simp only [Term.Supported, if_pos hX]
  by_cases hR : x.Readable
  · have hR' := hR
    obtain ⟨y1, y2, m1, m2, d1, d2, R⟩ := hR'
    obtain ⟨e, he⟩ : ∃ e : Endpoint, e = ⟨x, .none, .none, .none⟩ := ⟨_, rfl⟩
    have hd : e.date = x := by rw [he]
    have M1 : 0 = marked saysUncertain e.qy e.qm e.qd := by rw [he]; exact (marked_plain _).symm
    have M2 : 0 = marked saysApproximate e.qy e.qm e.qd := by rw [he]; exact (marked_plain _).symm
    have hs := SpanOf.date (f := f) e (he ▸ plain_shape ho) y1 m1 d1 y2 m2 d2 (hd.symm ▸ R)
    rw [show e.text = x.text by rw [he]; exact endpoint_plain x] at hs
    refine Or.inl ⟨_, (C55_denotes hf _ _).2 (.unspecified x ho hn hX _ _ hs), fun _ => hR, ?_⟩
    rw [hS, hu]
    simp only [Term.Honoured]
    constructor
    · rintro ⟨t1, t2, hB, hH⟩
      have hH := (honours_mk rfl rfl rfl rfl).1 hH
      rw [is_dawn_e, is_dusk_e] at hH
      obtain ⟨⟨rfl, -⟩, ⟨rfl, -⟩⟩ := hH
      exact ⟨fun e => (runs_wrong hf R e _).1 hB, hR⟩
    · rintro ⟨hm, -⟩
      exact ⟨_, _, runs_bounds hf ho hr R hm, (honours_mk rfl rfl rfl rfl).2 ⟨is_dawn_e.2 ⟨rfl, M1, M2, rfl⟩, is_dusk_e.2 ⟨rfl, M1, M2, rfl⟩⟩⟩
  · refine Or.inr ⟨fun d hd => hR ?_, fun k => hR (k hX), fun k => hR (hu.1 (hS.1 k)).2⟩
    have hd : parseString x.text = .ok d := hd
    rcases xparse ho hx hd with ⟨hs, -, -⟩ | ⟨sp, l, ft, hsp, -, -⟩
    · obtain ⟨n, m, d, -, -, e⟩ := xseason ho hx hs
      rw [e] at hX
      rcases hX with hX | hX
      · exact absurd hX (pad4_noX _)
      · exact absurd hX (pad2_noX _)
    · have := (readable_iff (plain_shape ho)).1 ⟨sp, by rw [endpoint_plain]; exact hsp⟩
      exact this

/-! ### Unspecified digits in the day only -/

theorem loose_of {a b : Char} {d : Nat} (hd : 1 ≤ d) (hl : d ≤ 31) (h : Fits [a, b] (pad2 d)) (hX : 'X' ∈ [a, b]) : LooseDay a b := by
  have key : ∀ d, d < 32 → 1 ≤ d → LooseDay 'X' (dig (d % 10)) ∧ LooseDay (dig (d / 10 % 10)) 'X' := by decide +kernel
  obtain ⟨k1, k2⟩ := key d (by omega) hd
  unfold pad2 at h
  obtain ⟨h1, h2, -⟩ := h
  rcases h1 with rfl | rfl
  · rcases h2 with rfl | rfl
    · decide
    · exact k1
  · rcases h2 with rfl | rfl
    · exact k2
    · have : ∀ k, k < 10 → dig k ≠ 'X' := by decide
      rcases List.mem_cons.1 hX with e | hX
      · exact absurd e.symm (this _ (by omega))
      · exact absurd (List.mem_singleton.1 hX).symm (this _ (by omega))

theorem len_31 {m : Nat} (h1 : 1 ≤ m) (h2 : m ≤ 12) (y : Int) :
    monthLen y m = 31 ↔ pad2 m ∉ [c! "02", c! "04", c! "06", c! "09", c! "11"] := by
  have key : ∀ m, m < 13 → (pad2 m ∉ [c! "02", c! "04", c! "06", c! "09", c! "11"] ↔ m ≠ 2 ∧ m ≠ 4 ∧ m ≠ 6 ∧ m ≠ 9 ∧ m ≠ 11) := by decide +kernel
  rw [key m (by omega)]
  have : m = 1 ∨ m = 2 ∨ m = 3 ∨ m = 4 ∨ m = 5 ∨ m = 6 ∨ m = 7 ∨ m = 8 ∨ m = 9 ∨ m = 10 ∨ m = 11 ∨ m = 12 := by omega
  rcases this with rfl | rfl | rfl | rfl | rfl | rfl | rfl | rfl | rfl | rfl | rfl | rfl <;> simp [monthLen]
  split <;> omega

/-- Day patterns that have the first and the last day. -/
theorem any_day {a b : Char} (hX : 'X' ∈ [a, b]) {l : Nat} (h1 : 28 ≤ l) (h2 : l ≤ 31) :
    Fits [a, b] (pad2 1) ∧ Fits [a, b] (pad2 l) ↔ [a, b] = c! "XX" ∨ ([a, b] = c! "X1" ∧ l = 31) := by
  have e1 : pad2 1 = ['0', '1'] := by decide
  have e2 : pad2 l = [dig (l / 10 % 10), dig (l % 10)] := rfl
  rw [e1, e2]
  simp only [Fits, and_true, List.cons.injEq]
  constructor
  · rintro ⟨⟨ha, hb⟩, ⟨ha', hb'⟩⟩
    have z : ∀ l, l < 32 → 28 ≤ l → '0' ≠ dig (l / 10 % 10) := by decide +kernel
    have o : ∀ l, l < 32 → 28 ≤ l → '1' = dig (l % 10) → l = 31 := by decide +kernel
    have ha : a = 'X' := by
      rcases ha with ha | rfl
      · exact ha
      · rcases ha' with k | k
        · cases k
        · exact absurd k (z l (by omega) h1)
    refine (hb.imp (fun k => ⟨ha, k⟩) (fun k => ⟨⟨ha, k⟩, ?_⟩))
    subst k
    rcases hb' with k | k
    · cases k
    · exact o l (by omega) h1 k
  · rintro (⟨rfl, rfl⟩ | ⟨⟨rfl, rfl⟩, rfl⟩)
    · simp
    · simp [dig]

theorem verdict_digits_day (hf : DayCount f) {x : XDate} (h : (Term.digits x).ok) (hX : ¬ ('X' ∈ x.year ∨ 'X' ∈ x.mx)) : Verdict f (.digits x) := by
  obtain ⟨ho, hn, hx, hr⟩ := h
  have hS : (Term.digits x).Supported ↔ x.AnyDay := by simp only [Term.Supported, if_neg hX]
  have h1 : 'X' ∉ x.year := fun k => hX (Or.inl k)
  have h2 : 'X' ∉ x.mx := fun k => hX (Or.inr k)
  obtain ⟨y, m, d, V, ⟨n, hk, ey, hfit⟩, hrest⟩ := hr
  obtain ⟨neg, yr, tl⟩ := x
  have hn : neg = false := hn
  subst hn
  simp only [Bool.false_eq_true, if_false] at ey
  subst ey
  have e : yr = pad4 n := (fits_eq h1).1 hfit
  subst e
  cases tl with
  | none =>
    rw [xtext] at hx
    exact absurd (by simpa [sgn] using hx) h1
  | month w =>
    exfalso
    rw [xtext] at hx
    rcases List.mem_append.1 (show 'X' ∈ pad4 n ++ '-' :: w from hx) with hh | hh
    · exact h1 hh
    · rcases List.mem_cons.1 hh with hh | hh
      · cases hh
      · exact h2 hh
  | day w v =>
    have hw : w = pad2 m := (fits_eq h2).1 hrest.1
    subst hw
    have hXv : 'X' ∈ v := by
      rw [xtext] at hx
      rcases List.mem_append.1 (show 'X' ∈ pad4 n ++ '-' :: (pad2 m ++ '-' :: v) from hx) with hh | hh
      · exact absurd hh h1
      · rcases List.mem_cons.1 hh with hh | hh
        · cases hh
        · rcases List.mem_append.1 hh with hh | hh
          · exact absurd hh h2
          · rcases List.mem_cons.1 hh with hh | hh
            · cases hh
            · exact hh
    obtain ⟨a, b, rfl⟩ : ∃ a b, v = [a, b] := by
      have := ho.2.2.2.2.1
      match v, this with
      | [a, b], _ => exact ⟨a, b, rfl⟩
    have L := monthLen_pos n m
    have hd31 : d ≤ 31 := by have := V.2.2.2; omega
    have hl := loose_of V.2.2.1 hd31 hrest.2 hXv
    have hden := Denotes.month (f := f) false n m hk V.1 V.2.1 n (by simp) (Or.inl (by omega)) ['-', a, b] (.loose a b hl)
    have et : (Term.digits ⟨false, pad4 n, .day (pad2 m) [a, b]⟩).text = signed false (pad4 n) ++ '-' :: (pad2 m ++ ['-', a, b]) := by
      show (⟨false, pad4 n, .day (pad2 m) [a, b]⟩ : XDate).text = _
      rw [xtext]; rfl
    have hp := (C55_denotes hf _ _).2 hden
    rw [← et] at hp
    refine Or.inl ⟨_, hp, fun k => absurd k hX, ?_⟩
    rw [hS]
    simp only [Term.Honoured]
    have hh : ∀ t1 t2, Honours (monthsResult f (Term.digits ⟨false, pad4 n, .day (pad2 m) [a, b]⟩).text 1 (c! "Seasons") n m n m) (.second t1 0 0 0) (.second t2 0 0 0) ↔
        t1 = 86400 * f n m 1 ∧ t2 = 86400 * f n m (monthLen n m) + 86399 := by
      intro t1 t2
      rw [honours_mk rfl rfl rfl rfl, is_dawn, is_dusk]
      rw [dayOf_value, dayOf_value]
      simp [dayOf, Date0.first, Date0.last]
    simp only [hh]
    have V1 : Valid (n : Int) m 1 := valid_first V.1 V.2.1
    have V2 : Valid (n : Int) m (monthLen n m) := valid_last V.1 V.2.1
    have rd : ∀ k, Valid (n : Int) m k → (XDate.Reads ⟨false, pad4 n, .day (pad2 m) [a, b]⟩ n m k ↔ Fits [a, b] (pad2 k)) := by
      intro k Vk
      constructor
      · exact fun k => k.2.2.2
      · exact fun k => ⟨Vk, ⟨n, hk, rfl, (fits_eq h1).2 rfl⟩, (fits_eq (pad2_noX _)).2 rfl, k⟩
    have any : XDate.AnyDay ⟨false, pad4 n, .day (pad2 m) [a, b]⟩ ↔ Fits [a, b] (pad2 1) ∧ Fits [a, b] (pad2 (monthLen n m)) := by
      rw [any_day hXv L.1 L.2, len_31 V.1 V.2.1]
      rfl
    rw [any, ← rd _ V1, ← rd _ V2]
    constructor
    · rintro ⟨t1, t2, ⟨⟨y1, m1, d1, r1, e1⟩, ⟨y2, m2, d2, r2, e2⟩, -⟩, rfl, rfl⟩
      obtain ⟨rfl, rfl, rfl⟩ := day_unique hf V1 r1.1 (by omega)
      obtain ⟨rfl, rfl, rfl⟩ := day_unique hf V2 r2.1 (by omega)
      exact ⟨r1, r2⟩
    · rintro ⟨r1, r2⟩
      refine ⟨_, _, ⟨⟨_, _, _, r1, rfl⟩, ⟨_, _, _, r2, rfl⟩, ?_⟩, rfl, rfl⟩
      rintro y' m' d' ⟨V', ⟨n', hk', ey', hfit'⟩, hrest'⟩
      simp only [Bool.false_eq_true, if_false] at ey'
      have en := pad4_inj hk hk' ((fits_eq h1).1 hfit')
      have em := pad2_inj (by have := V.2.1; omega) (by have := V'.2.1; omega) ((fits_eq (pad2_noX _)).1 hrest'.1)
      subst ey' en em
      have := day_order hf V1 V' (Or.inr ⟨rfl, Or.inr ⟨rfl, V'.2.2.1⟩⟩)
      have := day_order hf V' V2 (Or.inr ⟨rfl, Or.inr ⟨rfl, V'.2.2.2⟩⟩)
      omega

theorem verdict_digits (hf : DayCount f) {x : XDate} (h : (Term.digits x).ok) : Verdict f (.digits x) := by
  by_cases hX : 'X' ∈ x.year ∨ 'X' ∈ x.mx
  · exact verdict_digits_wide hf h hX
  · exact verdict_digits_day hf h hX

/-! ### The five forms of Level 1 -/

theorem fits_dig {k : Nat} : ('X' = 'X' ∨ 'X' = dig k) ∧ (dig k = 'X' ∨ dig k = dig k) := ⟨Or.inl rfl, Or.inr rfl⟩

theorem xdig (k : Nat) (h : k < 10) : XDigit (dig k) := Or.inr ⟨k, h, rfl⟩
theorem xpad4 (n : Nat) : ∀ c ∈ pad4 n, XDigit c := fun c hc => Or.inr ((isDig_iff c).1 (List.all_eq_true.1 (pad4_all n) c hc))
theorem xpad2 (n : Nat) : ∀ c ∈ pad2 n, XDigit c := fun c hc => Or.inr ((isDig_iff c).1 (List.all_eq_true.1 (pad2_all n) c hc))
theorem xx : ∀ c ∈ c! "XX", XDigit c := by
  intro c hc
  have : c = 'X' := by simpa using hc
  exact Or.inl this

theorem dig_ne_X {k : Nat} (h : k < 10) : dig k ≠ 'X' := (by decide : ∀ k, k < 10 → dig k ≠ 'X') k h

theorem fromRight_digits {x : XDate} (h : FromRight x) : (Term.digits x).ok ∧ (Term.digits x).Supported := by
  have V : ∀ {y : Int} {m : Nat}, 1 ≤ m → m ≤ 12 → Valid y m 1 := fun a b => valid_first a b
  cases h with
  | decade n h =>
    have d1 : n / 100 < 10 := by omega
    have d2 : n / 10 % 10 < 10 := by omega
    have d3 : n % 10 < 10 := by omega
    refine ⟨⟨⟨rfl, ?_, trivial⟩, rfl, by rw [xtext]; simp [sgn], (10 * n : Nat), 1, 1, V (by omega) (by omega), ⟨10 * n, by omega, rfl, ?_⟩, trivial⟩, ?_⟩
    · intro c hc
      simp only [List.mem_cons, List.not_mem_nil, or_false] at hc
      rcases hc with rfl | rfl | rfl | rfl
      · exact xdig _ d1
      · exact xdig _ d2
      · exact xdig _ d3
      · exact Or.inl rfl
    · simp only [pad4, Fits, and_true]
      refine ⟨Or.inr ?_, Or.inr ?_, Or.inr ?_, Or.inl trivial⟩
      · congr 1; omega
      · congr 1; omega
      · congr 1; omega
    · simp only [Term.Supported]
      rw [if_pos (Or.inl (by simp))]
      refine ⟨fun _ => ⟨?_, rfl⟩, nofun, nofun, nofun⟩
      intro k
      exact dig_ne_X d1 (by injection k)
  | century n h =>
    have d1 : n / 10 < 10 := by omega
    have d2 : n % 10 < 10 := by omega
    refine ⟨⟨⟨rfl, ?_, trivial⟩, rfl, by rw [xtext]; simp [sgn], (100 * n : Nat), 1, 1, V (by omega) (by omega), ⟨100 * n, by omega, rfl, ?_⟩, trivial⟩, ?_⟩
    · intro c hc
      simp only [List.mem_cons, List.not_mem_nil, or_false] at hc
      rcases hc with rfl | rfl | rfl | rfl
      · exact xdig _ d1
      · exact xdig _ d2
      · exact Or.inl rfl
      · exact Or.inl rfl
    · simp only [pad4, Fits, and_true]
      refine ⟨Or.inr ?_, Or.inr ?_, Or.inl trivial, Or.inl trivial⟩
      · congr 1; omega
      · congr 1; omega
    · simp only [Term.Supported]
      rw [if_pos (Or.inl (by simp))]
      refine ⟨fun _ => ⟨?_, rfl⟩, nofun, nofun, nofun⟩
      intro k
      exact dig_ne_X d1 (by injection k)
  | month n h =>
    refine ⟨⟨⟨rfl, xpad4 n, rfl, xx⟩, rfl, by rw [xtext]; simp [sgn], n, 1, 1, V (by omega) (by omega), ⟨n, h, rfl, (fits_eq (pad4_noX _)).2 rfl⟩, ?_⟩, ?_⟩
    · simp [Fits, pad2]
    · simp only [Term.Supported]
      rw [if_pos (Or.inr (by simp [XDate.mx]))]
      exact ⟨fun k => absurd k (pad4_noX _), fun _ => Or.inl rfl, nofun, nofun⟩
  | day n m h h1 h2 =>
    refine ⟨⟨⟨rfl, xpad4 n, rfl, xpad2 m, rfl, xx⟩, rfl, by rw [xtext]; simp [sgn], n, m, 1, V h1 h2, ⟨n, h, rfl, (fits_eq (pad4_noX _)).2 rfl⟩,
      (fits_eq (pad2_noX _)).2 rfl, by simp [Fits, pad2]⟩, ?_⟩
    simp only [Term.Supported]
    rw [if_neg (by rintro (k | k); exact absurd k (pad4_noX _); exact absurd k (pad2_noX _))]
    exact Or.inl rfl
  | both n h =>
    refine ⟨⟨⟨rfl, xpad4 n, rfl, xx, rfl, xx⟩, rfl, by rw [xtext]; simp [sgn], n, 1, 1, V (by omega) (by omega), ⟨n, h, rfl, (fits_eq (pad4_noX _)).2 rfl⟩,
      by simp [Fits, pad2], by simp [Fits, pad2]⟩, ?_⟩
    simp only [Term.Supported]
    rw [if_pos (Or.inr (by simp [XDate.mx]))]
    exact ⟨fun k => absurd k (pad4_noX _), fun _ => Or.inl rfl, fun _ => Or.inl rfl, nofun⟩

theorem verdict_fromRight (hf : DayCount f) {x : XDate} (h : (Term.fromRight x).ok) : Verdict f (.fromRight x) := by
  obtain ⟨h1, h2⟩ := fromRight_digits h
  rcases verdict_digits hf h1 with ⟨d, hp, -, hd⟩ | ⟨-, -, k⟩
  · exact Or.inl ⟨d, hp, trivial, ⟨fun _ => trivial, fun _ => hd.2 h2⟩⟩
  · exact absurd h2 k

/-! ### Intervals of Level 2 -/

theorem verdict_portions (hf : DayCount f) {a b : Endpoint} (h : (Term.portions a b).ok) : Verdict f (.portions a b) := by
  obtain ⟨⟨ha, na, ra⟩, ⟨hb, nb, rb⟩, -⟩ := h
  have ua := understood_iff ha.1 na ra
  have ub := understood_iff hb.1 nb rb
  by_cases hT : (Term.portions a b).Taken
  · have hT' := hT
    obtain ⟨⟨qa, Ra⟩, ⟨qb, Rb⟩⟩ := hT'
    have Ra' := Ra
    have Rb' := Rb
    obtain ⟨y1, y2, m1, m2, d1, d2, RA⟩ := Ra'
    obtain ⟨y3, y4, m3, m4, d3, d4, RB⟩ := Rb'
    have hp := (C55_denotes hf _ _).2 (.interval a b ha hb qa qb _ _ (.date a ha y1 m1 d1 y2 m2 d2 RA) (.date b hb y3 m3 d3 y4 m4 d4 RB))
    refine Or.inl ⟨_, hp, hT, ?_⟩
    simp only [Term.Honoured, Term.Supported, ua, ub]
    constructor
    · rintro ⟨t1, t2, t3, t4, hB, hB', hH⟩
      have hH := (honours_mk rfl rfl rfl rfl).1 hH
      rw [is_dawn_e, is_dusk_e] at hH
      obtain ⟨⟨rfl, -⟩, ⟨rfl, -⟩⟩ := hH
      exact ⟨⟨qa, fun e => (runs_wrong hf RA e _).1 hB, Ra⟩, ⟨qb, fun e => (runs_wrong hf RB e _).2 hB', Rb⟩⟩
    · rintro ⟨⟨-, ma, -⟩, ⟨-, mb, -⟩⟩
      exact ⟨_, _, _, _, runs_bounds hf ha.1 ra RA ma, runs_bounds hf hb.1 rb RB mb, (honours_mk rfl rfl rfl rfl).2 ⟨is_dawn_e.2 ⟨rfl, rfl, rfl, rfl⟩, is_dusk_e.2 ⟨rfl, rfl, rfl, rfl⟩⟩⟩
  · refine Or.inr ⟨fun d hd => hT ?_, hT, fun k => hT ⟨⟨k.1.1, (ua.1 k.1.2).2⟩, ⟨k.2.1, (ub.1 k.2.2).2⟩⟩⟩
    have hd : parseString (a.text ++ '/' :: b.text) = .ok d := hd
    by_cases hq : noRight a.qy a.qm a.qd ∧ noRight b.qy b.qm b.qd
    · have := (iv_readable (a := a) (b := b) ⟨ha, hq.1⟩ ⟨hb, hq.2⟩).1 ⟨d, hd⟩
      exact ⟨⟨hq.1, this.1.2⟩, ⟨hq.2, this.2.2⟩⟩
    · refine absurd hd (C29_right ha hb ?_)
      by_cases k : noRight a.qy a.qm a.qd
      · exact Or.inr fun k' => hq ⟨k, k'⟩
      · exact Or.inl k

/-! ### Panics -/

/-- None of the letters without which there is no panic. -/
def Quiet (s : Str) : Prop := ∀ c ∈ s, c ∉ c! "EeS"

theorem quiet_append {a b : Str} : Quiet (a ++ b) ↔ Quiet a ∧ Quiet b := List.forall_mem_append
theorem quiet_cons {c : Char} {b : Str} : Quiet (c :: b) ↔ c ∉ c! "EeS" ∧ Quiet b := List.forall_mem_cons
theorem quiet_nil : Quiet [] := nofun
theorem quiet_dig {k : Nat} (h : k < 10) : dig k ∉ c! "EeS" := (by decide : ∀ k, k < 10 → dig k ∉ c! "EeS") k h
theorem quiet_xdigit {c : Char} (h : XDigit c) : c ∉ c! "EeS" := by
  rcases h with rfl | ⟨n, hn, rfl⟩
  · decide
  · exact quiet_dig hn
theorem quiet_x {s : Str} (h : ∀ c ∈ s, XDigit c) : Quiet s := fun c hc => quiet_xdigit (h c hc)
theorem quiet_pad4 (n : Nat) : Quiet (pad4 n) := quiet_x (xpad4 n)
theorem quiet_pad2 (n : Nat) : Quiet (pad2 n) := quiet_x (xpad2 n)
theorem quiet_deco {q : Deco} {s : Str} (h : q.ok = true) (hs : Quiet s) : Quiet (q.text s) := by
  have key : ∀ c : Char, (c == '?' || c == '~' || c == '%') = true → c ∉ c! "EeS" := by
    intro c hc
    have : c = '?' ∨ c = '~' ∨ c = '%' := by simpa [or_assoc] using hc
    rcases this with rfl | rfl | rfl <;> decide
  cases q with
  | none => exact hs
  | left c => exact quiet_cons.2 ⟨key c h, hs⟩
  | right c => exact quiet_append.2 ⟨hs, quiet_cons.2 ⟨key c h, quiet_nil⟩⟩

theorem quiet_endpoint {e : Endpoint} (h : e.shape) : Quiet e.text := by
  obtain ⟨⟨-, hy, ht⟩, h1, h2, h3, -⟩ := h
  refine quiet_append.2 ⟨quiet_deco h1 ?_, ?_⟩
  · split
    · exact quiet_cons.2 ⟨by decide, quiet_x hy⟩
    · exact quiet_x hy
  · cases hT : e.date.tail with
    | none => exact quiet_nil
    | month m =>
      rw [hT] at ht
      exact quiet_cons.2 ⟨by decide, quiet_deco h2 (quiet_x ht.2)⟩
    | day m d =>
      rw [hT] at ht
      exact quiet_cons.2 ⟨by decide, quiet_append.2 ⟨quiet_deco h2 (quiet_x ht.2.1), quiet_cons.2 ⟨by decide, quiet_deco h3 (quiet_x ht.2.2.2)⟩⟩⟩

theorem quiet_xdate {x : XDate} (h : x.ok) : Quiet x.text := by
  rw [← endpoint_plain]
  exact quiet_endpoint (plain_shape h)

theorem quiet_date (x : Date0) : Quiet x.text := by
  obtain ⟨neg, n, t⟩ := x
  refine quiet_append.2 ⟨?_, ?_⟩
  · show Quiet (if neg then '-' :: pad4 n else pad4 n)
    split
    · exact quiet_cons.2 ⟨by decide, quiet_pad4 n⟩
    · exact quiet_pad4 n
  · cases t with
    | none => exact quiet_nil
    | month m => exact quiet_cons.2 ⟨by decide, quiet_pad2 m⟩
    | day m d => exact quiet_cons.2 ⟨by decide, quiet_append.2 ⟨quiet_pad2 m, quiet_cons.2 ⟨by decide, quiet_pad2 d⟩⟩⟩

theorem quiet_edge {e : Edge} (h : e.ok) : Quiet e.text := by
  cases e with
  | opened => unfold Quiet Edge.text; decide
  | unknown => exact quiet_nil
  | date x q =>
    refine quiet_append.2 ⟨quiet_date x, ?_⟩
    cases q with
    | none => exact quiet_nil
    | some c =>
      have := h.2.2 c rfl
      refine quiet_cons.2 ⟨?_, quiet_nil⟩
      have : c = '?' ∨ c = '~' ∨ c = '%' := by simpa using this
      rcases this with rfl | rfl | rfl <;> decide

theorem loud {s : Str} (h : Panics s) (hq : Quiet s) : False := by
  cases h with
  | infinite yc ec hy he neg ms es hm hes h1 h2 =>
    refine hq ec ?_ ?_
    · refine List.mem_cons_of_mem _ ?_
      cases neg <;> simp [signed]
    · rcases (by simpa using he : ec = 'E' ∨ ec = 'e') with rfl | rfl <;> decide
  | infiniteSig yc ec hy he neg ms es hm hes h1 h2 ds hd =>
    exact hq 'S' (List.mem_cons_of_mem _ (List.mem_append_right _ List.mem_cons_self)) (by decide)
  | digits t v h u hu ds hd h1 h2 =>
    exact hq 'S' (List.mem_append_right _ List.mem_cons_self) (by decide)

theorem not_panic_of_fails {s : Str} {e : Err} (h : Fails s e) : parseString s ≠ .panic := by
  rw [(C62_error s e).2 h]; exact nofun
theorem not_panic_quiet {s : Str} (h : Quiet s) : parseString s ≠ .panic := fun k => loud ((C63_panic s).1 k) h

theorem crash_exponential {neg : Bool} {ms es : List Nat} (h : (Term.exponential neg ms es).ok) :
    parseString (Term.exponential neg ms es).text = .panic ↔ (Term.exponential neg ms es).Crashes := by
  obtain ⟨hm, he⟩ := h
  constructor
  · intro hp
    by_cases h1 : TooLarge ms es
    · exact absurd hp (not_panic_of_fails (.exponential 'Y' 'E' (by decide) (by decide) neg ms es hm.1 he.1 _ (.large h1)))
    · by_cases h2 : Overflows ms es
      · exact ⟨h1, h2⟩
      · by_cases h3 : ∃ v, ExpYear neg ms es v
        · obtain ⟨v, hv⟩ := h3
          rcases Nat.lt_or_ge v.natAbs 1000 with hl | hl
          · exact absurd hp (not_panic_of_fails (.exponentialShort 'Y' 'E' (by decide) (by decide) neg ms es hm.1 he.1 v ⟨h1, h2, hv⟩ hl _ (numeral_iff.2 rfl)))
          · rcases verdict_exponential dayCount_unixDay (neg := neg) (ms := ms) (es := es) ⟨hm, he⟩ with ⟨d, hd, -⟩ | ⟨-, hn, -⟩
            · rw [hd] at hp; cases hp
            · exact absurd ⟨v, hv, hl⟩ hn
        · exact absurd hp (not_panic_of_fails (.exponential 'Y' 'E' (by decide) (by decide) neg ms es hm.1 he.1 _ (.unsupported h1 h2 h3)))
  · rintro ⟨h1, h2⟩
    exact (C63_panic _).2 (.infinite 'Y' 'E' (by decide) (by decide) neg ms es hm.1 he.1 h1 h2)

theorem sig_crash {t : Str} {v : Int} (h : SigReads t v) (ht : SigText t v) {ks : List Nat} (hd : Number ks) :
    parseString (t ++ 'S' :: ks.map dig) = .panic ↔ (itoa v).length < value10 ks ∧ value10 ks < 10 ^ (itoa v).length := by
  constructor
  · intro hp
    rcases Nat.lt_or_ge (itoa v).length (value10 ks) with k | k
    · rcases Nat.lt_or_ge (value10 ks) (10 ^ (itoa v).length) with k' | k'
      · exact ⟨k, k'⟩
      · exact absurd hp (not_panic_of_fails (.sigLarge t v h _ (numeral_iff.2 rfl) ks hd.1 k'))
    · by_cases hs : SigFits v (value10 ks)
      · obtain ⟨a, b, hab⟩ := sig_denotes hs
        rw [(C55_denotes dayCount_unixDay _ _).2 (.significant _ v ht ks hd.1 a b hab)] at hp
        cases hp
      · exact absurd hp (not_panic_of_fails (.sigShort t v h _ (numeral_iff.2 rfl) ks hd.1 k hs))
  · rintro ⟨k, k'⟩
    exact (C63_panic _).2 (.digits t v h _ (numeral_iff.2 rfl) ks hd.1 k k')

theorem crash_significant {y : SigBase} {ks : List Nat} (h : (Term.significant y ks).ok) :
    parseString (Term.significant y ks).text = .panic ↔ (Term.significant y ks).Crashes := by
  obtain ⟨hy, hd⟩ := h
  cases y with
  | four n =>
    have hy : 1000 ≤ n ∧ n ≤ 9999 := hy
    have r1 : SigReads (pad4 n) n := SigReads.date false n (by omega)
    have r2 : SigText (pad4 n) n := SigText.date false n (by omega)
    have key := sig_crash r1 r2 hd
    have hl : (itoa (n : Int)).length = 4 := by
      have : Numeral n (pad4 n) := ⟨[n / 1000, n / 100 % 10, n / 10 % 10, n % 10], ⟨by simp, by intro d hd; simp only [List.mem_cons, List.not_mem_nil, or_false] at hd; omega⟩,
        fun k => by simp at k; omega, by simp [value10]; omega, by simp [signed, pad4, show n / 1000 % 10 = n / 1000 by omega, show ¬ (n : Int) < 0 by omega]⟩
      rw [← numeral_iff.1 this]
      rfl
    rw [hl] at key
    exact key
  | letter neg ds =>
    have hy : Number ds ∧ 4 < ds.length := hy
    have := not_panic_of_fails (.sigLetter neg ds hy.1.1 (by cases neg <;> simp [signed] <;> omega) ks hd.1)
    refine ⟨fun k => absurd k ?_, nofun⟩
    simpa [Term.text, SigBase.text] using this
  | exponential neg ms es =>
    have hy : Number ms ∧ Number es := hy
    show parseString (('Y' :: signed neg (ms.map dig ++ 'E' :: es.map dig)) ++ 'S' :: ks.map dig) = .panic ↔ _
    by_cases h1 : TooLarge ms es
    · refine ⟨fun k => absurd k (not_panic_of_fails (.sigExponential 'Y' 'E' (by decide) (by decide) neg ms es hy.1.1 hy.2.1 _ (.large h1) ks hd.1)), ?_⟩
      rintro (k | ⟨v, u, k, -⟩)
      · exact absurd h1 k.1
      · exact absurd h1 k.1
    · by_cases h2 : Overflows ms es
      · exact ⟨fun _ => Or.inl ⟨h1, h2⟩, fun _ => (C63_panic _).2 (.infiniteSig 'Y' 'E' (by decide) (by decide) neg ms es hy.1.1 hy.2.1 h1 h2 ks hd.1)⟩
      · by_cases h3 : ∃ v, ExpYear neg ms es v
        · obtain ⟨v, hv⟩ := h3
          constructor
          · intro k
            have k := (sig_crash (.exponential 'Y' 'E' (by decide) (by decide) neg ms es hy.1.1 hy.2.1 v ⟨h1, h2, hv⟩)
              (.exponential 'Y' 'E' (by decide) (by decide) neg ms es hy.1.1 hy.2.1 v hv) hd).1 k
            exact Or.inr ⟨v, _, ⟨h1, h2, hv⟩, numeral_iff.2 rfl, k⟩
          · rintro (k | ⟨v', u, hv', hu, k, k'⟩)
            · exact absurd k.2 h2
            · exact (C63_panic _).2 (.digits _ v' (.exponential 'Y' 'E' (by decide) (by decide) neg ms es hy.1.1 hy.2.1 v' hv') u hu ks hd.1 k k')
        · refine ⟨fun k => absurd k (not_panic_of_fails (.sigExponential 'Y' 'E' (by decide) (by decide) neg ms es hy.1.1 hy.2.1 _ (.unsupported h1 h2 h3) ks hd.1)), ?_⟩
          rintro (k | ⟨v, u, k, -⟩)
          · exact absurd k.2 h2
          · exact absurd ⟨v, k.2.2⟩ h3

end EDTF
