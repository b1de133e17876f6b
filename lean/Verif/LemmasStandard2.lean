/- For C87: exponents and significant digits. -/
import Verif.LemmasStandard
import Verif.PropsSig
namespace EDTF
open Spec
variable {f : Int → Nat → Nat → Int}

/-! ### Years -/

/-- The years of a record from a year to a year. -/
theorem years_limits (hf : DayCount f) {r : EDTFDate} {S E : DateRange} {y z : Int} {p p' : Prec} (h1 : r.start = some S) (h2 : r.stop = some E)
    (h3 : S.lower = some (dayStart f y 1 1 0 0 p)) (h4 : E.upper = some (dayEnd f z 12 31 0 0 p')) {v w : Int} :
    HonoursYears f r v w ↔ v = y ∧ w = z := by
  unfold HonoursYears
  rw [honours_mk h1 h2 h3 h4, is_dawn, is_dusk]
  have V1 : ∀ y : Int, Valid y 1 1 := fun y => valid_first (by omega) (by omega)
  have V2 : ∀ y : Int, Valid y 12 31 := fun y => ⟨by omega, by omega, by omega, by simp [monthLen]⟩
  constructor
  · rintro ⟨⟨k1, -⟩, ⟨k2, -⟩⟩
    exact ⟨(day_unique hf (V1 _) (V1 _) (by omega)).1, (day_unique hf (V2 _) (V2 _) (by omega)).1⟩
  · rintro ⟨rfl, rfl⟩
    exact ⟨⟨rfl, rfl, rfl, rfl⟩, ⟨rfl, rfl, rfl, rfl⟩⟩

theorem years_honoured (hf : DayCount f) {r : EDTFDate} {b b' : Bool} {n n' : Nat} {e e' : Str} {p p' : Prec}
    (h1 : r.start = some ((⟨b, n, .none⟩ : Date0).range f e 0 0 p)) (h2 : r.stop = some ((⟨b', n', .none⟩ : Date0).range f e' 0 0 p')) {v w : Int} :
    HonoursYears f r v w ↔ v = (⟨b, n, .none⟩ : Date0).value ∧ w = (⟨b', n', .none⟩ : Date0).value := years_limits hf h1 h2 rfl rfl

/-! ### Numbers -/

theorem expValue_natAbs (neg : Bool) (ms es : List Nat) : (expValue neg ms es).natAbs = value10 ms * 10 ^ value10 es := by
  unfold expValue
  cases neg
  · exact Int.natAbs_natCast _
  · exact (Int.natAbs_neg _).trans (Int.natAbs_natCast _)

theorem value10_cons (d : Nat) (ds : List Nat) : value10 (d :: ds) = d * 10 ^ ds.length + value10 ds := by
  unfold value10
  have : ∀ (l : List Nat) (a : Nat), l.foldl (fun acc d => 10 * acc + d) a = a * 10 ^ l.length + l.foldl (fun acc d => 10 * acc + d) 0 := by
    intro l
    induction l with
    | nil => simp
    | cons x l ih =>
      intro a
      simp only [List.foldl_cons, List.length_cons]
      rw [ih (10 * a + x), ih (10 * 0 + x), Nat.pow_succ]
      have e : (10 * a + x) * 10 ^ l.length = a * (10 ^ l.length * 10) + (10 * 0 + x) * 10 ^ l.length := by
        simp [Nat.add_mul, Nat.mul_comm, Nat.mul_assoc]
      omega
  simp only [List.foldl_cons]
  rw [this ds (10 * 0 + d)]
  simp

theorem number_pos {ds : List Nat} (h : Number ds) : 1 ≤ value10 ds := by
  obtain ⟨⟨h0, -⟩, h2⟩ := h
  cases ds with
  | nil => exact absurd rfl h0
  | cons d ds =>
    have hd : d ≠ 0 := fun k => h2 (by rw [k]; rfl)
    have hp : 0 < 10 ^ ds.length := Nat.pow_pos (by omega)
    have := Nat.mul_le_mul (show 1 ≤ d by omega) (Nat.le_refl (10 ^ ds.length))
    rw [value10_cons]
    omega

theorem expValue_ne {neg : Bool} {ms es : List Nat} (h : Number ms) : expValue neg ms es ≠ 0 := by
  intro k
  have h1 := expValue_natAbs neg ms es
  have h2 := number_pos h
  have h3 : 0 < 10 ^ value10 es := Nat.pow_pos (by omega)
  have := Nat.mul_pos h2 h3
  omega

theorem exp_same {neg : Bool} {ms es : List Nat} (h : Number ms) (hv : (expValue neg ms es).natAbs ≤ 9999) :
    ExpYear neg ms es (expValue neg ms es) := by
  have h1 := expValue_natAbs neg ms es
  have h2 := number_pos h
  have h3 : value10 es < 4 := by
    rcases Nat.lt_or_ge (value10 es) 4 with k | k
    · exact k
    · have := Nat.mul_le_mul h2 (Nat.pow_le_pow_right (show 0 < 10 by omega) k)
      omega
  refine ⟨by omega, by omega, by omega, _, Or.inl ⟨by omega, rfl⟩, ?_⟩
  have e : (if neg then -((value10 ms * 10 ^ value10 es : Nat) : Int) else ((value10 ms * 10 ^ value10 es : Nat) : Int)) = expValue neg ms es := rfl
  rw [e, Int.sub_self]
  exact ⟨0, by simp⟩

theorem exp_same_unique {neg : Bool} {ms es : List Nat} {v : Int} (hv : ExpYear neg ms es v) (hn : (expValue neg ms es).natAbs ≤ 9999) :
    v = expValue neg ms es := by
  obtain ⟨-, h1, h2, r, hr, hd⟩ := hv
  have e := expValue_natAbs neg ms es
  have hr : r = value10 ms * 10 ^ value10 es := by
    rcases hr with ⟨-, h⟩ | ⟨k, q, hk, hl, -⟩
    · exact h
    · have : 2 ^ 64 ≤ 2 ^ (63 + k) := Nat.pow_le_pow_right (by omega) (by omega)
      omega
  have e2 : (if neg then -(r : Int) else r) = expValue neg ms es := by rw [hr]; rfl
  rw [e2] at hd
  obtain ⟨c, hc⟩ := hd
  omega

/-! ### Exponents -/

theorem not_ok_of_fails {s : Str} {e : Err} (h : Fails s e) (d : EDTFDate) : parseString s ≠ .ok d := by
  rw [(C62_error s e).2 h]; exact nofun

theorem not_ok_of_panics {s : Str} (h : Panics s) (d : EDTFDate) : parseString s ≠ .ok d := by
  rw [(C63_panic s).2 h]; exact nofun

theorem int_sign (v : Int) : ∃ b : Bool, v = if b then -(v.natAbs : Int) else v.natAbs := by
  by_cases h : v < 0
  · exact ⟨true, by simp only [if_true]; omega⟩
  · exact ⟨false, by simp only [Bool.false_eq_true, if_false]; omega⟩

theorem verdict_exponential (hf : DayCount f) {neg : Bool} {ms es : List Nat} (h : (Term.exponential neg ms es).ok) : Verdict f (.exponential neg ms es) := by
  obtain ⟨hm, he⟩ := h
  by_cases ht : (Term.exponential neg ms es).Taken
  · have ht' := ht
    obtain ⟨v, hv, hl⟩ := ht'
    obtain ⟨b, hb⟩ := int_sign v
    have hu : v.natAbs ≤ 9999 := by obtain ⟨-, h1, h2, -⟩ := hv; omega
    rw [hb] at hv
    have hd := Denotes.exponential (f := f) 'Y' 'E' (by decide) (by decide) neg ms es hm.1 he.1 b v.natAbs hl hu hv
    refine Or.inl ⟨_, (C55_denotes hf _ _).2 hd, ht, ?_⟩
    have key := years_limits (f := f) hf (r := (⟨b, v.natAbs, .none⟩ : Date0).result f (⟨b, v.natAbs, .none⟩ : Date0).text
      ('Y' :: signed neg (ms.map dig ++ 'E' :: es.map dig)) 2 (c! "Exponential year") 0 0) rfl rfl (y := if b then -(v.natAbs : Int) else v.natAbs)
      (z := if b then -(v.natAbs : Int) else v.natAbs) rfl rfl (v := expValue neg ms es) (w := expValue neg ms es)
    simp only [Term.Honoured, Term.Supported]
    have key' := key.trans ⟨And.left, fun k => ⟨k, k⟩⟩
    refine key'.trans ?_
    show _ = (if b then -(v.natAbs : Int) else v.natAbs) ↔ _
    rw [← hb]
    rw [← hb] at hv
    constructor
    · intro k; rw [k]; exact ⟨hl, hu⟩
    · intro k; exact (exp_same_unique hv k.2).symm
  · refine Or.inr ⟨?_, ht, fun k => ht ⟨_, exp_same hm k.2, k.1⟩⟩
    show ∀ d, parseString ('Y' :: signed neg (ms.map dig ++ 'E' :: es.map dig)) ≠ .ok d
    by_cases h1 : TooLarge ms es
    · exact not_ok_of_fails (.exponential 'Y' 'E' (by decide) (by decide) neg ms es hm.1 he.1 _ (.large h1))
    · by_cases h2 : Overflows ms es
      · exact not_ok_of_panics (.infinite 'Y' 'E' (by decide) (by decide) neg ms es hm.1 he.1 h1 h2)
      · by_cases h3 : ∃ v, ExpYear neg ms es v
        · obtain ⟨v, hv⟩ := h3
          have hl : v.natAbs < 1000 := by
            rcases Nat.lt_or_ge v.natAbs 1000 with k | k
            · exact k
            · exact absurd ⟨v, hv, k⟩ ht
          exact not_ok_of_fails (.exponentialShort 'Y' 'E' (by decide) (by decide) neg ms es hm.1 he.1 v ⟨h1, h2, hv⟩ hl _ (numeral_iff.2 rfl))
        · exact not_ok_of_fails (.exponential 'Y' 'E' (by decide) (by decide) neg ms es hm.1 he.1 _ (.unsupported h1 h2 h3))

/-! ### Significant digits -/

theorem rest_pos {n k j : Nat} (hn : 1 ≤ n) (h : Rest n k j) : 1 ≤ n / 10 ^ j * 10 ^ j := by
  rcases h with ⟨-, rfl⟩ | ⟨h, -⟩
  · simpa using hn
  · have h1 : 0 < 10 ^ (k - 1) := Nat.pow_pos (by omega)
    have h2 : 0 < 10 ^ j := Nat.pow_pos (by omega)
    have := Nat.mul_pos (show 0 < n / 10 ^ j by omega) h2
    omega

/-- The same years from the first and from the last digits: only for two digits of four. -/
theorem rest_same {N n k j : Nat} (hk : 1 ≤ k) (hk4 : k ≤ 4) (hr : Rest N k j) (h1 : 1000 ≤ n) (h2 : n ≤ 9999)
    (e1 : N / 10 ^ j * 10 ^ j = n / 10 ^ k * 10 ^ k) (e2 : N / 10 ^ j * 10 ^ j + (10 ^ j - 1) = n / 10 ^ k * 10 ^ k + (10 ^ k - 1)) :
    k = 2 ∧ 1000 ≤ N ∧ N ≤ 9999 := by
  have p1 : 0 < 10 ^ j := Nat.pow_pos (by omega)
  have p2 : 0 < 10 ^ k := Nat.pow_pos (by omega)
  have e : 10 ^ j = 10 ^ k := by omega
  have hj : j = k := (Nat.pow_right_inj (by omega)).1 e
  subst hj
  have e3 : N / 10 ^ j = n / 10 ^ j := Nat.eq_of_mul_eq_mul_right p1 e1
  rcases hr with ⟨-, h⟩ | ⟨h3, h4⟩
  · omega
  · rw [e3] at h3 h4
    have : j = 1 ∨ j = 2 ∨ j = 3 ∨ j = 4 := by omega
    rcases this with rfl | rfl | rfl | rfl <;> simp only [Nat.reducePow, Nat.reduceSub, true_and] at * <;> omega

/-- What is asked of the years of an expression with significant digits. -/
def SigAsked (V : Int) (k : Nat) (v w : Int) : Prop :=
  ∃ j, Rest V.natAbs k j ∧
    if V < 0 then v = -((V.natAbs / 10 ^ j * 10 ^ j + (10 ^ j - 1) : Nat) : Int) ∧ w = -((V.natAbs / 10 ^ j * 10 ^ j : Nat) : Int)
    else v = ((V.natAbs / 10 ^ j * 10 ^ j : Nat) : Int) ∧ w = ((V.natAbs / 10 ^ j * 10 ^ j + (10 ^ j - 1) : Nat) : Int)

theorem sig_asked {V v : Int} {k : Nat} {a b : Date0} (h : SigYears v k a b) (hk : 1 ≤ k) (h0 : V ≠ 0)
    (hv : 1000 ≤ V.natAbs → V.natAbs ≤ 9999 → v = V) : SigAsked V k a.value b.value ↔ 1000 ≤ V.natAbs ∧ V.natAbs ≤ 9999 ∧ k = 2 := by
  constructor
  · rintro ⟨j, hr, hj⟩
    have hp := rest_pos (by omega) hr
    cases h with
    | pos n _ h1 h2 hk4 =>
      simp only [Date0.value, Bool.false_eq_true, if_false] at hj
      by_cases hV : V < 0
      · rw [if_pos hV] at hj; omega
      · rw [if_neg hV] at hj
        have := rest_same hk hk4 hr h1 h2 (by omega) (by omega)
        exact ⟨this.2.1, this.2.2, this.1⟩
    | neg n _ h1 h2 hk4 =>
      simp only [Date0.value, if_true] at hj
      by_cases hV : V < 0
      · rw [if_pos hV] at hj
        have := rest_same hk hk4 hr h1 h2 (by omega) (by omega)
        exact ⟨this.2.1, this.2.2, this.1⟩
      · rw [if_neg hV] at hj; omega
    | sign n h1 h2 =>
      simp only [Date0.value, Bool.false_eq_true, if_false] at hj
      by_cases hV : V < 0
      · rw [if_pos hV] at hj; omega
      · rw [if_neg hV] at hj; omega
  · rintro ⟨h1, h2, rfl⟩
    have e := hv h1 h2
    refine ⟨2, Or.inr ⟨by simp only [Nat.reducePow, Nat.reduceSub]; omega, by simp only [Nat.reducePow]; omega⟩, ?_⟩
    cases h with
    | pos n _ k1 k2 hk4 =>
      subst e
      rw [if_neg (by omega)]
      simp [Date0.value]
    | neg n _ k1 k2 hk4 =>
      subst e
      rw [if_pos (by omega)]
      simp only [Date0.value, if_true, Int.natAbs_neg, Int.natAbs_natCast, and_self]

/-- The record of an expression with significant digits. -/
theorem sig_honoured (hf : DayCount f) {r : EDTFDate} {v : Int} {k : Nat} {a b : Date0} (h : SigYears v k a b) {e e' : Str} {p p' : Prec}
    (h1 : r.start = some (a.range f e 0 0 p)) (h2 : r.stop = some (b.range f e' 0 0 p')) {x y : Int} :
    HonoursYears f r x y ↔ x = a.value ∧ y = b.value := by
  cases h <;> exact years_honoured hf h1 h2

theorem verdict_sig_ok (hf : DayCount f) {y : SigBase} {ks : List Nat} {v : Int} (hd : Number ks) (ht : SigText y.text v)
    (hs : SigFits v (value10 ks)) (hT : (Term.significant y ks).Taken) (h0 : y.value ≠ 0)
    (hv : 1000 ≤ y.value.natAbs → y.value.natAbs ≤ 9999 → v = y.value) : Verdict f (.significant y ks) := by
  obtain ⟨a, b, hab⟩ := sig_denotes hs
  refine Or.inl ⟨_, (C55_denotes hf _ _).2 (.significant _ v ht ks hd.1 a b hab), hT, ?_⟩
  refine Iff.trans ?_ (sig_asked hab (number_pos hd) h0 hv)
  simp only [Term.Honoured, SigAsked]
  refine exists_congr fun j => and_congr_right fun _ => ?_
  split
  · rw [sig_honoured hf hab rfl rfl]
    exact ⟨fun k => ⟨k.1.symm, k.2.symm⟩, fun k => ⟨k.1.symm, k.2.symm⟩⟩
  · rw [sig_honoured hf hab rfl rfl]
    exact ⟨fun k => ⟨k.1.symm, k.2.symm⟩, fun k => ⟨k.1.symm, k.2.symm⟩⟩

/-- Too many significant digits, or a year that has not four digits. -/
theorem sig_refused {t : Str} {v : Int} (h : SigReads t v) {ks : List Nat} (hd : Digits ks) (hn : ¬ SigFits v (value10 ks)) (d : EDTFDate) :
    parseString (t ++ 'S' :: ks.map dig) ≠ .ok d := by
  rcases Nat.lt_or_ge (itoa v).length (value10 ks) with k | k
  · rcases Nat.lt_or_ge (value10 ks) (10 ^ (itoa v).length) with k' | k'
    · exact not_ok_of_panics (.digits t v h _ (numeral_iff.2 rfl) ks hd k k') d
    · exact not_ok_of_fails (.sigLarge t v h _ (numeral_iff.2 rfl) ks hd k') d
  · exact not_ok_of_fails (.sigShort t v h _ (numeral_iff.2 rfl) ks hd k hn) d

theorem verdict_significant (hf : DayCount f) {y : SigBase} {ks : List Nat} (h : (Term.significant y ks).ok) : Verdict f (.significant y ks) := by
  obtain ⟨hy, hd⟩ := h
  cases y with
  | four n =>
    have hy : 1000 ≤ n ∧ n ≤ 9999 := hy
    by_cases hk : value10 ks ≤ 4
    · exact verdict_sig_ok hf hd (v := n) (by have := SigText.date false n (by omega); simpa [signed, SigBase.text] using this)
        (Or.inl ⟨by omega, by omega, hk⟩) hk (by show (n : Int) ≠ 0; omega) (fun _ _ => rfl)
    · refine Or.inr ⟨?_, hk, fun k => ?_⟩
      · have := sig_refused (t := pad4 n) (v := n) (by have := SigReads.date false n (by omega); simpa [signed] using this) hd.1
          (by rintro (k | k) <;> omega)
        exact this
      · have := k.2.2; omega
  | letter neg ds =>
    have hy : Number ds ∧ 4 < ds.length := hy
    refine Or.inr ⟨?_, id, fun k => ?_⟩
    · have := not_ok_of_fails (.sigLetter neg ds hy.1.1 (by cases neg <;> simp [signed] <;> omega) ks hd.1)
      simpa [Term.text, SigBase.text] using this
    · have h1 : 10000 ≤ value10 ds := by
        obtain ⟨⟨⟨h0, -⟩, h2⟩, hl⟩ := hy
        cases ds with
        | nil => exact absurd rfl h0
        | cons d ds =>
          have hd : d ≠ 0 := fun k => h2 (by rw [k]; rfl)
          have hp : 10 ^ 4 ≤ 10 ^ ds.length := Nat.pow_le_pow_right (by omega) (by simp only [List.length_cons] at hl; omega)
          have := Nat.mul_le_mul (show 1 ≤ d by omega) hp
          rw [value10_cons]
          omega
      have h2 : (SigBase.letter neg ds).value.natAbs = value10 ds := by
        unfold SigBase.value; cases neg <;> simp
      have := k.2.1
      omega
  | exponential neg ms es =>
    have hy : Number ms ∧ Number es := hy
    by_cases ht : (Term.significant (.exponential neg ms es) ks).Taken
    · have ht' := ht
      obtain ⟨v, hv, hs⟩ := ht'
      exact verdict_sig_ok hf hd (.exponential 'Y' 'E' (by decide) (by decide) neg ms es hy.1.1 hy.2.1 v hv) hs ht (expValue_ne hy.1)
        (fun _ k => exp_same_unique hv k)
    · refine Or.inr ⟨?_, ht, fun k => ht ⟨_, exp_same hy.1 k.2.1, Or.inl ⟨k.1, k.2.1, by have := k.2.2; omega⟩⟩⟩
      show ∀ d, parseString (('Y' :: signed neg (ms.map dig ++ 'E' :: es.map dig)) ++ 'S' :: ks.map dig) ≠ .ok d
      by_cases h1 : TooLarge ms es
      · exact not_ok_of_fails (.sigExponential 'Y' 'E' (by decide) (by decide) neg ms es hy.1.1 hy.2.1 _ (.large h1) ks hd.1)
      · by_cases h2 : Overflows ms es
        · exact not_ok_of_panics (.infiniteSig 'Y' 'E' (by decide) (by decide) neg ms es hy.1.1 hy.2.1 h1 h2 ks hd.1)
        · by_cases h3 : ∃ v, ExpYear neg ms es v
          · obtain ⟨v, hv⟩ := h3
            exact sig_refused (.exponential 'Y' 'E' (by decide) (by decide) neg ms es hy.1.1 hy.2.1 v ⟨h1, h2, hv⟩) hd.1 (fun k => ht ⟨v, hv, k⟩)
          · exact not_ok_of_fails (.sigExponential 'Y' 'E' (by decide) (by decide) neg ms es hy.1.1 hy.2.1 _ (.unsupported h1 h2 h3) ks hd.1)

end EDTF
