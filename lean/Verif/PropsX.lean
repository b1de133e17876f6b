/- C20, C21: dates with unspecified digits. -/
import Verif.PropsSig
import Verif.LemmasQual
import Verif.PropsSet
namespace EDTF
namespace Spec

/-- Month and day of a date with unspecified digits. -/
inductive XTail where
  | none
  | month (m : Str)
  | day (m d : Str)

/-- A date written with digits and `X`. -/
structure XDate where
  neg : Bool
  year : Str
  tail : XTail

/-- A digit or an `X`. -/
def XDigit (c : Char) : Prop := c = 'X' ∨ ∃ k, k < 10 ∧ c = dig k

/-- Four characters for the year, two each for month and day. -/
def XDate.ok (x : XDate) : Prop :=
  x.year.length = 4 ∧ (∀ c ∈ x.year, XDigit c) ∧
  match x.tail with
  | .none => True
  | .month m => m.length = 2 ∧ ∀ c ∈ m, XDigit c
  | .day m d => m.length = 2 ∧ (∀ c ∈ m, XDigit c) ∧ d.length = 2 ∧ ∀ c ∈ d, XDigit c

/-- As written. -/
def XDate.text (x : XDate) : Str :=
  (if x.neg then ['-'] else []) ++ x.year ++
  match x.tail with
  | .none => []
  | .month m => '-' :: m
  | .day m d => '-' :: m ++ '-' :: d

/-- `t` is obtained from the pattern `p` by replacing each `X`. -/
def Fits : Str → Str → Prop
  | [], [] => True
  | p :: ps, c :: cs => (p = 'X' ∨ p = c) ∧ Fits ps cs
  | _, _ => False

/-- The existing day `d` of month `m` of year `y` is a reading of `x`. -/
def XDate.Reads (x : XDate) (y : Int) (m d : Nat) : Prop :=
  Valid y m d ∧ (∃ n : Nat, n < 10000 ∧ y = (if x.neg then -(n : Int) else n) ∧ Fits x.year (pad4 n)) ∧
  match x.tail with
  | .none => True
  | .month p => Fits p (pad2 m)
  | .day p q => Fits p (pad2 m) ∧ Fits q (pad2 d)

/-- The month as written. -/
def XDate.mx (x : XDate) : Str := match x.tail with | .none => [] | .month m => m | .day m _ => m
/-- The day as written. -/
def XDate.dx (x : XDate) : Str := match x.tail with | .none => [] | .month _ => [] | .day _ d => d

end Spec
open Spec

variable {f : Int → Nat → Nat → Int}

/-! ### The forms of such a text -/

theorem xdigit_iff {c : Char} : XDigit c ↔ isDX c = true := by
  unfold XDigit isDX
  rw [Bool.or_eq_true, isDig_iff]
  constructor
  · rintro (rfl | h)
    · exact Or.inr rfl
    · exact Or.inl h
  · rintro (h | h)
    · exact Or.inr h
    · exact Or.inl (by simpa using h)

theorem xall {w : Str} (h : ∀ c ∈ w, XDigit c) : ∀ c ∈ w, isDX c = true := fun c hc => xdigit_iff.1 (h c hc)

theorem four_chars {w : Str} (h : w.length = 4) : ∃ a b c d, w = [a, b, c, d] := by
  match w, h with
  | [a, b, c, d], _ => exact ⟨a, b, c, d, rfl⟩

theorem two_chars {w : Str} (h : w.length = 2) : ∃ a b, w = [a, b] := by
  match w, h with
  | [a, b], _ => exact ⟨a, b, rfl⟩

theorem xyear_lang {x : XDate} (h : x.ok) : Lang Rx.yearX (sgn x.neg x.year) := by
  obtain ⟨a, b, c, d, e⟩ := four_chars h.1
  have hx := xall h.2.1
  rw [e] at hx ⊢
  exact lang_yearX.2 ⟨x.neg, a, b, c, d, rfl, hx a (by simp), hx b (by simp), hx c (by simp), hx d (by simp)⟩

theorem dx_not_mem {w : Str} (h : ∀ c ∈ w, isDX c = true) {c : Char} (hc : isDX c = false) : c ∉ w := by
  intro hm
  rw [h c hm] at hc
  cases hc

theorem deco_none {q : Deco} {w : Str} (hq : q.ok = true) (h : ∀ c ∈ q.text w, isQ c = false) : q = .none := by
  cases q with
  | none => rfl
  | left c => have := h c (by simp [Deco.text]); rw [deco_ok_left, this] at hq; cases hq
  | right c => have := h c (by simp [Deco.text]); rw [deco_ok_right, this] at hq; cases hq

theorem comp_plain {a : Comp} {w : Str} (hq : a.q.ok = true) (h : a.text = w) (hw : ∀ c ∈ w, isQ c = false) : a = ⟨w, .none⟩ := by
  have h1 : a.q = .none := deco_none hq (w := a.x) (by rw [show a.q.text a.x = w from h]; exact hw)
  cases a with
  | mk x q =>
    simp only at h1
    subst h1
    have : x = w := h
    rw [this]

theorem sgn_notQ {neg : Bool} {w : Str} (h : ∀ c ∈ w, isDX c = true) : ∀ c ∈ sgn neg w, isQ c = false := by
  intro c hc
  cases neg with
  | false => exact isDX_notQ (h c hc)
  | true =>
    rcases List.mem_cons.1 hc with rfl | hc
    · rfl
    · exact isDX_notQ (h c hc)

theorem xtext {x : XDate} : x.text = sgn x.neg x.year ++ (match x.tail with | .none => [] | .month m => '-' :: m | .day m d => '-' :: (m ++ '-' :: d)) := by
  unfold XDate.text sgn
  cases x.neg <;> cases x.tail <;> simp

/-- The components of the text are determined. -/
theorem xform {x : XDate} (h : x.ok) {F : YMDForm} (hF : F.ok) (e : x.text = F.text) :
    F.yx = sgn x.neg x.year ∧ F.mx = x.mx ∧ F.dx = x.dx ∧ F.yc.q = .none ∧ F.mq = .none ∧ F.dq = .none := by
  have hy := xyear_lang h
  have hya := xall h.2.1
  have hdash : ∀ {w : Str}, (∀ c ∈ w, XDigit c) → '-' ∉ w := fun hw => dx_not_mem (xall hw) (by decide)
  have hok : (⟨sgn x.neg x.year, .none⟩ : Comp).okFor Rx.yearX := ⟨rfl, hy⟩
  rw [xtext, F.text_eq] at e
  have htail : DashTail (match x.tail with | .none => [] | .month m => '-' :: m | .day m d => '-' :: (m ++ '-' :: d)) := by
    cases x.tail with
    | none => exact Or.inl rfl
    | month m => exact Or.inr ⟨_, rfl⟩
    | day m d => exact Or.inr ⟨_, rfl⟩
  obtain ⟨e1, e2⟩ := split_year hok (F.yc_ok hF) htail F.tail_dash e
  have hyc := comp_plain (F.yc_ok hF).1 e1.symm (sgn_notQ hya)
  have hyx : F.yx = sgn x.neg x.year := congrArg Comp.x hyc
  have hyq : F.yc.q = .none := congrArg Comp.q hyc
  have htx := h.2.2
  unfold XDate.mx XDate.dx
  cases ht : x.tail with
  | none =>
    rw [ht] at e2
    cases F with
    | y a => exact ⟨hyx, rfl, rfl, hyq, rfl, rfl⟩
    | ym a b => cases e2
    | ymd a b c => cases e2
  | month m =>
    rw [ht] at e2 htx
    cases F with
    | y a => cases e2
    | ym a b =>
      injection e2 with _ e2
      have := comp_plain hF.2.1 e2.symm (fun c hc => isDX_notQ (xall htx.2 c hc))
      subst this
      exact ⟨hyx, rfl, rfl, hyq, rfl, rfl⟩
    | ymd a b c =>
      injection e2 with _ e2
      exfalso
      refine hdash htx.2 ?_
      rw [e2]; simp
  | day m d =>
    rw [ht] at e2 htx
    cases F with
    | y a => cases e2
    | ym a b =>
      injection e2 with _ e2
      exfalso
      refine (comp2_dash (fun _ => lang_monthX_DX) hF.2).1 ?_
      rw [← e2]; simp
    | ymd a b c =>
      injection e2 with _ e2
      obtain ⟨k1, k2⟩ := split_dash (hdash htx.2.1) (comp2_dash (fun _ => lang_monthX_DX) hF.2.1).1 (Or.inr ⟨_, rfl⟩) (Or.inr ⟨_, rfl⟩) e2
      injection k2 with _ k2
      have t1 := comp_plain hF.2.1.1 k1.symm (fun c hc => isDX_notQ (xall htx.2.1 c hc))
      have t2 := comp_plain hF.2.2.1 k2.symm (fun c hc => isDX_notQ (xall htx.2.2.2 c hc))
      subst t1 t2
      exact ⟨hyx, rfl, rfl, hyq, rfl, rfl⟩

/-! ### Readings of a component -/

theorem fits_two {a b c d : Char} : Fits [a, b] [c, d] ↔ (a = 'X' ∨ a = c) ∧ (b = 'X' ∨ b = d) := by
  simp [Fits]

theorem fits_four {a b c d a' b' c' d' : Char} : Fits [a, b, c, d] [a', b', c', d'] ↔
    (a = 'X' ∨ a = a') ∧ (b = 'X' ∨ b = b') ∧ (c = 'X' ∨ c = c') ∧ (d = 'X' ∨ d = d') := by
  simp [Fits]

theorem fits_eq {w t : Str} (h : 'X' ∉ w) : Fits w t ↔ w = t := by
  induction w generalizing t with
  | nil => cases t <;> simp [Fits]
  | cons c w ih =>
    cases t with
    | nil => simp [Fits]
    | cons d t =>
      simp only [List.mem_cons, not_or] at h
      simp only [Fits, List.cons.injEq, ih h.2]
      constructor
      · rintro ⟨h1 | h1, h2⟩
        · exact absurd h1.symm h.1
        · exact ⟨h1, h2⟩
      · rintro ⟨h1, h2⟩; exact ⟨Or.inr h1, h2⟩

theorem pad4_noX (n : Nat) : 'X' ∉ pad4 n := digits_not_mem (pad4_all n) (by decide)
theorem pad2_noX (n : Nat) : 'X' ∉ pad2 n := digits_not_mem (pad2_all n) (by decide)

theorem digit_fits {c : Char} (h : isDX c = true) {k : Nat} (hk : k < 10) : (c = 'X' ∨ c = dig k) ↔ loD c ≤ k ∧ k ≤ hiD c := by
  unfold loD hiD
  rcases isDX_cases h with ⟨h1, h2⟩ | rfl
  · obtain ⟨j, hj, rfl⟩ := (isDig_iff c).1 h1
    rw [if_neg h2, if_neg h2, digVal_dig_lt j hj]
    constructor
    · rintro (h | h)
      · exact absurd h h2
      · have := dig_inj hj hk h; omega
    · intro h; exact Or.inr (by rw [show j = k by omega])
  · simp; omega

/-- The years that fit lie between the first and the last, and both of these fit. -/
theorem yearSpan_reads {neg : Bool} {w : Str} (hl : w.length = 4) (hw : ∀ c ∈ w, isDX c = true) {y1 y2 : Int} {p : Prec} (h : YearSpan (sgn neg w) y1 y2 p) :
    (∀ n, n < 10000 → Fits w (pad4 n) → y1 ≤ (if neg then -(n : Int) else n) ∧ (if neg then -(n : Int) else n) ≤ y2) ∧
    (∃ n : Nat, n < 10000 ∧ y1 = (if neg then -(n : Int) else n) ∧ Fits w (pad4 n)) ∧
    (∃ n : Nat, n < 10000 ∧ y2 = (if neg then -(n : Int) else n) ∧ Fits w (pad4 n)) := by
  have hdash : '-' ∉ w := dx_not_mem hw (by decide)
  generalize hs : sgn neg w = s at h
  cases h with
  | plain neg' n' hn' =>
    have hh : neg = neg' ∧ w = pad4 n' := by
      cases neg <;> cases neg'
      · exact ⟨rfl, hs⟩
      · exact absurd (by rw [show w = '-' :: pad4 n' from hs]; simp) hdash
      · have : '-' ∈ pad4 n' := by rw [show pad4 n' = '-' :: w from hs.symm]; simp
        exact absurd this (digits_not_mem (pad4_all n') (by decide))
      · injection hs with _ hs; exact ⟨rfl, hs⟩
    obtain ⟨rfl, rfl⟩ := hh
    refine ⟨?_, ⟨n', hn', rfl, (fits_eq (pad4_noX _)).2 rfl⟩, ⟨n', hn', rfl, (fits_eq (pad4_noX _)).2 rfl⟩⟩
    intro n hn hf
    have := pad4_inj hn' hn ((fits_eq (pad4_noX _)).1 hf)
    subst this
    exact ⟨Int.le_refl _, Int.le_refl _⟩
  | x a b c ha hb hc =>
    have hh : neg = false ∧ w = [a, b, c, 'X'] := by
      cases neg
      · exact ⟨rfl, hs⟩
      · injection hs with hs _
        rw [← hs] at ha; cases ha
    obtain ⟨rfl, rfl⟩ := hh
    have hda := hw a (by simp)
    have hX : isDX 'X' = true := by decide
    have lb := loD_le b hb
    have lc := loD_le c hc
    have la := digVal_lt ha
    have na : a ≠ 'X' := isDig_ne ha (by decide)
    have ea : loD a = digVal a ∧ hiD a = digVal a := by unfold loD hiD; rw [if_neg na, if_neg na]; exact ⟨rfl, rfl⟩
    have key : ∀ n, Fits [a, b, c, 'X'] (pad4 n) ↔ (loD a ≤ n / 1000 % 10 ∧ n / 1000 % 10 ≤ hiD a) ∧ (loD b ≤ n / 100 % 10 ∧ n / 100 % 10 ≤ hiD b) ∧
        (loD c ≤ n / 10 % 10 ∧ n / 10 % 10 ≤ hiD c) := by
      intro n
      unfold pad4
      rw [fits_four, digit_fits hda (by omega), digit_fits hb (by omega), digit_fits hc (by omega)]
      simp
    refine ⟨?_, ⟨1000 * digVal a + 100 * loD b + 10 * loD c, by omega, rfl, (key _).2 (by omega)⟩,
      ⟨1000 * digVal a + 100 * hiD b + 10 * hiD c + 9, by omega, rfl, (key _).2 (by omega)⟩⟩
    intro n hn hf
    have := (key n).1 hf
    simp only [Bool.false_eq_true, if_false]
    omega

theorem monthSpan_reads {w : Str} {m1 m2 : Nat} (h : MonthSpan w m1 m2) (h0 : w ≠ []) (hx : w ≠ ['0', 'X']) :
    (∀ m, 1 ≤ m → m ≤ 12 → Fits w (pad2 m) → m1 ≤ m ∧ m ≤ m2) ∧ Fits w (pad2 m1) ∧ Fits w (pad2 m2) := by
  cases h with
  | none => exact absurd rfl h0
  | plain _ a b =>
    refine ⟨?_, (fits_eq (pad2_noX _)).2 rfl, (fits_eq (pad2_noX _)).2 rfl⟩
    intro m k1 k2 hf
    have := pad2_inj (by omega) (by omega) ((fits_eq (pad2_noX _)).1 hf)
    omega
  | xx => exact ⟨fun m k1 k2 _ => ⟨k1, k2⟩, by unfold pad2; simp [Fits], by unfold pad2; simp [Fits]⟩
  | dx c hc =>
    rcases hc with rfl | rfl
    · exact absurd rfl hx
    · refine ⟨?_, by simp [pad2, Fits, dig], by simp [pad2, Fits, dig]⟩
      intro m k1 k2 hf
      unfold pad2 at hf
      rw [fits_two] at hf
      have := hf.1.resolve_left (by decide)
      have := dig_inj (a := 1) (by omega) (by omega) this
      omega

theorem daySpan_reads {w : Str} {l1 l2 d1 d2 : Nat} (h : DaySpan w l1 l2 d1 d2) (h0 : w ≠ []) (b1 : l1 ≤ 31) (b2 : l2 ≤ 31) :
    (∀ d, 1 ≤ d → d ≤ 31 → Fits w (pad2 d) → d1 ≤ d ∧ (d ≤ l2 → d ≤ d2)) ∧
    (w ≠ pad2 0 → 1 ≤ l1 → 1 ≤ l2 → (w = ['3', 'X'] → 30 ≤ l2) → Fits w (pad2 d1) ∧ Fits w (pad2 d2)) := by
  cases h with
  | none => exact absurd rfl h0
  | plain _ _ _ a b =>
    refine ⟨?_, fun _ _ _ _ => ⟨(fits_eq (pad2_noX _)).2 rfl, (fits_eq (pad2_noX _)).2 rfl⟩⟩
    intro d k1 k2 hf
    have := pad2_inj (by omega) (by omega) ((fits_eq (pad2_noX _)).1 hf)
    omega
  | zero =>
    refine ⟨?_, fun h => absurd rfl h⟩
    intro d k1 k2 hf
    have := pad2_inj (by omega) (by omega) ((fits_eq (pad2_noX _)).1 hf)
    omega
  | xx => exact ⟨fun d k1 k2 _ => ⟨k1, id⟩, fun _ _ _ _ => ⟨by unfold pad2; simp [Fits], by unfold pad2; simp [Fits]⟩⟩
  | x1 =>
    refine ⟨?_, fun _ _ _ _ => ⟨by simp [pad2, Fits, dig], by simp [pad2, Fits, dig]⟩⟩
    intro d k1 k2 hf
    unfold pad2 at hf
    rw [fits_two] at hf
    have := dig_inj (a := 1) (by omega) (by omega) (hf.1.resolve_left (by decide))
    omega
  | x2 =>
    refine ⟨?_, fun _ _ _ _ => ⟨by simp [pad2, Fits, dig], by simp [pad2, Fits, dig]⟩⟩
    intro d k1 k2 hf
    unfold pad2 at hf
    rw [fits_two] at hf
    have := dig_inj (a := 2) (by omega) (by omega) (hf.1.resolve_left (by decide))
    omega
  | x3 =>
    refine ⟨?_, fun _ _ _ h => ⟨by simp [pad2, Fits, dig], ?_⟩⟩
    · intro d k1 k2 hf
      unfold pad2 at hf
      rw [fits_two] at hf
      have := dig_inj (a := 3) (by omega) (by omega) (hf.1.resolve_left (by decide))
      omega
    · have h := h rfl
      unfold pad2
      rw [fits_two]
      refine ⟨Or.inr ?_, Or.inl rfl⟩
      rw [show l2 / 10 % 10 = 3 by omega]; rfl

/-! ### Which parser -/

theorem xchars {x : XDate} (h : x.ok) {c : Char} (h1 : isDX c = false) (h2 : c ≠ '-') : c ∉ x.text := by
  have hy := dx_not_mem (xall h.2.1) h1
  have ht := h.2.2
  rw [xtext]
  intro hc
  rcases List.mem_append.1 hc with hc | hc
  · cases hn : x.neg with
    | false => rw [hn] at hc; exact hy hc
    | true =>
      rw [hn] at hc
      rcases List.mem_cons.1 hc with hc | hc
      · exact h2 hc
      · exact hy hc
  · cases hx : x.tail with
    | none => rw [hx] at hc; simp at hc
    | month m =>
      rw [hx] at hc ht
      rcases List.mem_cons.1 hc with hc | hc
      · exact h2 hc
      · exact dx_not_mem (xall ht.2) h1 hc
    | day m d =>
      rw [hx] at hc ht
      rcases List.mem_cons.1 hc with hc | hc
      · exact h2 hc
      · rcases List.mem_append.1 hc with hc | hc
        · exact dx_not_mem (xall ht.2.1) h1 hc
        · rcases List.mem_cons.1 hc with hc | hc
          · exact h2 hc
          · exact dx_not_mem (xall ht.2.2.2) h1 hc

theorem span_of_date {s : Str} (h : '/' ∉ s) : dateSpanFromEDTF s = dateSpanFromYMD s := by
  unfold dateSpanFromEDTF
  rw [splitChar_none h]

/-- A date with an unspecified digit is read by the season parser or by one of
the two parsers for unspecified digits. -/
theorem xparse {x : XDate} (h : x.ok) (hX : 'X' ∈ x.text) {r : EDTFDate} (hp : parseString x.text = .ok r) :
    (L1.isSeason x.text = true ∧ L1.isLevel1 x.text = true ∧ L1.parseSeason x.text = .ok r) ∨
    ∃ sp l ft, dateSpanFromYMD x.text = .ok sp ∧ r = mkEDTF sp x.text l ft ∧
      ((l = 1 ∧ ft = L1.UNSPECIFIED_DIGITS ∧ L1.isUnspecifiedDigits x.text = true) ∨
        (l = 2 ∧ ft = L2.UNSPECIFIED_DIGIT ∧ L2.isUnspecifiedDigit x.text = true)) := by
  have nm : ∀ c, isDX c = false → c ≠ '-' → c ∉ x.text := fun c a b => xchars h a b
  generalize x.text = s at *
  have hsp := span_of_date (nm '/' (by decide) (by decide))
  have h0 : L0.isLevel0 s = false := not_level0_char hX (by decide)
  unfold parseString at hp
  rw [if_neg (by simp [h0])] at hp
  by_cases h1 : L1.isLevel1 s = true
  · rw [if_pos h1] at hp
    unfold L1.parseString at hp
    rw [if_neg (by rw [not_letter (nm 'Y' (by decide) (by decide))]; simp)] at hp
    by_cases h2 : L1.isSeason s = true
    · rw [if_pos h2] at hp
      exact Or.inl ⟨h2, h1, hp⟩
    rw [if_neg h2, if_neg (by rw [isQualifiedDate_iff]; exact not_lang_of_char (c := 'X') (by decide) hX)] at hp
    by_cases h3 : L1.isUnspecifiedDigits s = true
    · rw [if_pos h3] at hp
      obtain ⟨-, sp, hs, rfl⟩ := guard_inv hp
      exact Or.inr ⟨sp, _, _, hsp ▸ hs, rfl, Or.inl ⟨rfl, rfl, h3⟩⟩
    rw [if_neg h3, if_neg (by rw [isNegativeYear_iff]; exact not_lang_of_char (c := 'X') (by decide) hX), if_pos (isExtendedInterval_true s)] at hp
    exfalso
    have n1 : ¬ Lang (Rx.intervalStart 1) s := not_lang_of_must ['/'] (by decide) (by simpa using nm '/' (by decide) (by decide))
    have n2 : ¬ Lang (Rx.intervalEnd 1) s := not_lang_of_must ['/'] (by decide) (by simpa using nm '/' (by decide) (by decide))
    unfold L1.parseExtendedInterval at hp
    rw [if_neg (by rw [isIntervalStart_iff]; exact n1), if_neg (by rw [isIntervalEnd_iff]; exact n2)] at hp
    cases hp
  rw [if_neg h1] at hp
  by_cases h2 : L2.isLevel2 s = true
  · rw [if_pos h2] at hp
    unfold L2.parseString at hp
    have e1 : ¬ (L2.isExponentialYear s = true) := by
      rw [isExponential_iff]; exact not_lang_of_char (c := 'X') (by decide) hX
    have e2 : ¬ (L2.isSignificantDigits s = true) := by
      rw [isSig_iff]; exact not_lang_of_char (c := 'X') (by decide) hX
    have e3 : ¬ (L2.isSubYearGrouping s = true) := by
      rw [isSubYear_iff]; exact not_lang_of_char (c := 'X') (by decide) hX
    have e4 : ¬ (L2.isSetRepresentation s = true) := by
      rw [isSet_iff]; exact not_lang_of_char (c := 'X') (by decide) hX
    have e5 : ¬ (L2.isGroupQualification s = true) := by
      rw [isGroup_iff]; exact not_lang_of_char (c := 'X') (by decide) hX
    have e6 : ¬ (L2.isIndividualQualification s = true) := by
      rw [isIndividual_iff]; exact not_lang_of_char (c := 'X') (by decide) hX
    have e8 : ¬ (L2.isInterval s = true) := by
      rw [isInterval_iff]; exact not_lang_of_must ['/'] (by decide) (by simpa using nm '/' (by decide) (by decide))
    rw [if_neg e1, if_neg e2, if_neg e3, if_neg e4, if_neg e5, if_neg e6] at hp
    by_cases h3 : L2.isUnspecifiedDigit s = true
    · rw [if_pos h3] at hp
      obtain ⟨-, sp, hs, rfl⟩ := guard_inv hp
      exact Or.inr ⟨sp, _, _, hsp ▸ hs, rfl, Or.inr ⟨rfl, rfl, h3⟩⟩
    · rw [if_neg h3, if_neg e8] at hp
      cases hp
  rw [if_neg h2] at hp
  exfalso
  split at hp
  · rename_i h; subst h; simp [OPEN] at hX
  · split at hp
    · rename_i h; subst h; simp [UNKNOWN, UNSPECIFIED] at hX
    · cases hp

/-- What the season parser can get. -/
theorem xseason {x : XDate} (h : x.ok) (hX : 'X' ∈ x.text) (hs : L1.isSeason x.text = true) :
    ∃ n m d, n < 10000 ∧ SeasonNum m ∧ x = ⟨x.neg, pad4 n, .day (pad2 m) d⟩ := by
  rcases (C49_exact_partial _).1 hs with ⟨neg, n, m, rest, hn, hm, e⟩ | ⟨pre, w, t1, t2, z, n, -, -, -, -, e⟩
  · have hy : (⟨sgn x.neg x.year, .none⟩ : Comp).okFor Rx.yearX := ⟨rfl, xyear_lang h⟩
    have hy' : (⟨yearStr neg n, .none⟩ : Comp).okFor Rx.yearX := ⟨rfl, lang_yearStr neg n⟩
    have e0 := e
    rw [xtext] at e
    have htail : DashTail (match x.tail with | .none => [] | .month m => '-' :: m | .day m d => '-' :: (m ++ '-' :: d)) := by
      cases x.tail with
      | none => exact Or.inl rfl
      | month m => exact Or.inr ⟨_, rfl⟩
      | day m d => exact Or.inr ⟨_, rfl⟩
    obtain ⟨e1, e2⟩ := split_year hy hy' htail (Or.inr ⟨_, rfl⟩) e
    have e1 : sgn x.neg x.year = yearStr neg n := e1
    have hdash : '-' ∉ x.year := dx_not_mem (xall h.2.1) (by decide)
    have hh : x.neg = neg ∧ x.year = pad4 n := by
      cases hxn : x.neg <;> cases neg <;> rw [hxn] at e1
      · exact ⟨rfl, e1⟩
      · exact absurd (by rw [show x.year = '-' :: pad4 n from e1]; simp) hdash
      · have : '-' ∈ pad4 n := by rw [show pad4 n = '-' :: x.year from e1.symm]; simp
        exact absurd this (digits_not_mem (pad4_all n) (by decide))
      · injection e1 with _ e1; exact ⟨rfl, e1⟩
    have ht := h.2.2
    obtain ⟨xn, xy, xt⟩ := x
    obtain ⟨hn1, hy1⟩ := hh
    simp only at hn1 hy1 e2 ht
    subst hn1 hy1
    cases xt with
    | none => cases e2
    | month w =>
      exfalso
      injection e2 with _ e2
      have : w = pad2 m := by
        obtain ⟨a, b, rfl⟩ := two_chars ht.1
        injection e2 with i1 e2
        injection e2 with i2 e2
        rw [i1, i2]; rfl
      subst this
      have hh : 'X' ∈ yearStr xn n ++ '-' :: pad2 m := by rw [xtext] at hX; exact hX
      rcases List.mem_append.1 hh with hh | hh
      · exact yearStr_not_mem _ _ (by decide) (by decide) hh
      · rcases List.mem_cons.1 hh with hh | hh
        · cases hh
        · exact pad2_noX _ hh
    | day w d =>
      injection e2 with _ e2
      obtain ⟨k1, k2⟩ := List.append_inj e2 (by rw [ht.1]; rfl)
      exact ⟨n, m, d, hn, hm, by rw [k1]⟩
  · exfalso
    refine xchars h (c := ',') (by decide) (by decide) ?_
    rw [e]; simp

/-- The result of the season parser: all of the month, or an error. -/
theorem xseason_result (hf : DayCount f) {neg : Bool} {n m : Nat} {d : Str} (hn : n < 10000) (h1 : 1 ≤ m) (h2 : m ≤ 12)
    (h0 : L0.isLevel0 (⟨neg, pad4 n, .day (pad2 m) d⟩ : XDate).text = false) (hl : L1.isLevel1 (⟨neg, pad4 n, .day (pad2 m) d⟩ : XDate).text = true)
    {r : EDTFDate} (hp : parseString (⟨neg, pad4 n, .day (pad2 m) d⟩ : XDate).text = .ok r) :
    r = monthsResult f (⟨neg, pad4 n, .day (pad2 m) d⟩ : XDate).text 1 (c! "Seasons") (if neg then -(n : Int) else n) m (if neg then -(n : Int) else n) m := by
  have e : (⟨neg, pad4 n, .day (pad2 m) d⟩ : XDate).text = yearStr neg n ++ '-' :: (pad2 m ++ '-' :: d) := by rw [xtext]; rfl
  rw [e] at h0 hl hp ⊢
  by_cases hy : PadYear (if neg then -(n : Int) else n)
  · rw [parse_prefix_ok hf hn (Or.inl ⟨h1, h2⟩) h0 hl (numSpan_month h1 h2) hy hy h1 h2 h1 h2] at hp
    injection hp with hp
    exact hp.symm
  · obtain ⟨t, ht⟩ := parse_prefix_err hn (Or.inl ⟨h1, h2⟩) h0 hl (numSpan_month h1 h2)
      (Or.inl (by have : (if neg then -(n : Int) else n).natAbs < 10000 := by split <;> omega
                  unfold PadYear at hy; omega)) (by split <;> omega) h1 h2 h1 h2
    rw [ht] at hp; cases hp

/-- Readings lie between the first and the last day of the span. -/
theorem span_between {x : XDate} (h : x.ok) (hm : x.mx ≠ ['0', 'X']) {y1 y2 : Int} {m1 m2 d1 d2 : Nat} {py : Prec}
    (hY : YearSpan (sgn x.neg x.year) y1 y2 py) (hM : MonthSpan x.mx m1 m2) (hD : DaySpan x.dx (monthLen y1 m1) (monthLen y2 m2) d1 d2)
    {y : Int} {m d : Nat} (hr : x.Reads y m d) : dayLe y1 m1 d1 y m d ∧ dayLe y m d y2 m2 d2 := by
  obtain ⟨V, ⟨n, hn, rfl, hfit⟩, hrest⟩ := hr
  have ly := (yearSpan_reads h.1 (xall h.2.1) hY).1 n hn hfit
  have L1 := monthLen_pos y1 m1
  have L2 := monthLen_pos y2 m2
  obtain ⟨q1, q2, q3, -⟩ := month_strs hM (p := Prec.YEAR) (by decide)
  have lm : m1 ≤ m ∧ m ≤ m2 := by
    unfold XDate.mx at hM hm
    cases ht : x.tail with
    | none =>
      rw [ht] at hM
      cases hM
      · exact ⟨V.1, V.2.1⟩
    | month w =>
      rw [ht] at hM hm hrest
      exact (monthSpan_reads hM (by intro h0; have k := h.2.2; rw [ht] at k; simp only at h0 k; rw [h0] at k; exact absurd k.1 (by decide)) hm).1 m V.1 V.2.1 hrest
    | day w v =>
      rw [ht] at hM hm hrest
      exact (monthSpan_reads hM (by intro h0; have k := h.2.2; rw [ht] at k; simp only at h0 k; rw [h0] at k; exact absurd k.1 (by decide)) hm).1 m V.1 V.2.1 hrest.1
  have Lr := monthLen_pos (if x.neg then -(n : Int) else n) m
  have ld : d1 ≤ d ∧ (d ≤ monthLen y2 m2 → d ≤ d2) := by
    unfold XDate.dx at hD
    cases ht : x.tail with
    | none =>
      rw [ht] at hD
      cases hD
      exact ⟨V.2.2.1, id⟩
    | month w =>
      rw [ht] at hD
      cases hD
      exact ⟨V.2.2.1, id⟩
    | day w v =>
      rw [ht] at hD hrest
      exact (daySpan_reads hD (by intro h0; have k := h.2.2; rw [ht] at k; simp only at h0 k; rw [h0] at k; exact absurd k.2.2.1 (by decide)) L1.2 L2.2).1 d V.2.2.1 (by have := V.2.2.2; omega) hrest.2
  constructor
  · unfold dayLe; omega
  · unfold dayLe
    by_cases ey : (if x.neg then -(n : Int) else n) = y2
    · by_cases em : m = m2
      · have := ld.2 (by rw [← ey, ← em]; exact V.2.2.2)
        omega
      · omega
    · omega

/-! ### C20 -/

/-- C20, the part that holds: unless the month is written "0X", every reading
of a date with unspecified digits that parses is inside the span. -/
theorem C20_inside_partial (hf : DayCount f) {x : XDate} (h : x.ok) (hX : 'X' ∈ x.text) (hm : x.mx ≠ ['0', 'X']) {r : EDTFDate}
    (hp : parseString x.text = .ok r) {y : Int} {m d : Nat} (hr : x.Reads y m d) :
    ∃ lo hi, r.lower = .ok lo ∧ r.upper = .ok hi ∧ lo ≤ 86400 * f y m d ∧ 86400 * f y m d + 86399 ≤ hi := by
  obtain ⟨V, ⟨n, hn, rfl, hfit⟩, hrest⟩ := hr
  have bounds : ∀ {y1 y2 : Int} {m1 d1 m2 d2 : Nat}, Valid y1 m1 d1 → Valid y2 m2 d2 → r.lower = .ok (86400 * f y1 m1 d1) →
      r.upper = .ok (86400 * f y2 m2 d2 + 86399) → dayLe y1 m1 d1 (if x.neg then -(n : Int) else n) m d →
      dayLe (if x.neg then -(n : Int) else n) m d y2 m2 d2 →
      ∃ lo hi, r.lower = .ok lo ∧ r.upper = .ok hi ∧ lo ≤ 86400 * f (if x.neg then -(n : Int) else n) m d ∧
        86400 * f (if x.neg then -(n : Int) else n) m d + 86399 ≤ hi := by
    intro y1 y2 m1 d1 m2 d2 V1 V2 e1 e2 l1 l2
    have := day_order hf V1 V l1
    have := day_order hf V V2 l2
    exact ⟨_, _, e1, e2, by omega, by omega⟩
  rcases xparse h hX hp with ⟨hs, hl, -⟩ | ⟨sp, l, ft, hd, rfl, -⟩
  · obtain ⟨n', m', d', hn', hm', e⟩ := xseason h hX hs
    have h0 : L0.isLevel0 x.text = false := not_level0_char hX (by decide)
    obtain ⟨neg, yr, tl⟩ := x
    simp only [XDate.mk.injEq, true_and] at e
    obtain ⟨rfl, rfl⟩ := e
    simp only at *
    have := pad4_inj hn' hn ((fits_eq (pad4_noX _)).1 hfit)
    subst this
    have hmm : m' = m := pad2_inj (by rcases hm' with h | h <;> omega) (by have := V.2.1; omega) ((fits_eq (pad2_noX _)).1 hrest.1)
    subst hmm
    have hr := xseason_result hf hn V.1 V.2.1 h0 hl hp
    obtain ⟨b1, b2⟩ := monthsResult_bounds (f := f) (⟨neg, pad4 n', .day (pad2 m') d'⟩ : XDate).text 1 (c! "Seasons") (if neg then -(n' : Int) else n') m' (if neg then -(n' : Int) else n') m'
    rw [← hr] at b1 b2
    exact bounds (valid_first V.1 V.2.1) (valid_last V.1 V.2.1) b1 b2 (Or.inr ⟨rfl, Or.inr ⟨rfl, V.2.2.1⟩⟩) (Or.inr ⟨rfl, Or.inr ⟨rfl, V.2.2.2⟩⟩)
  · obtain ⟨F, y1, y2, m1, m2, d1, d2, py, hF, e, hY, hM, hD, V1, V2, rfl⟩ := dateSpan_inv hd
    obtain ⟨f1, f2, f3, -⟩ := xform h hF e
    rw [f1] at hY
    rw [f2] at hM
    rw [f3] at hD
    have c1 := dayCount_eq hf V1
    have c2 := dayCount_eq hf V2
    obtain ⟨b1, b2⟩ := span_between h hm hY hM hD ⟨V, ⟨n, hn, rfl, hfit⟩, hrest⟩
    refine bounds V1 V2 ?_ ?_ b1 b2
    · rw [c1]; simp [EDTFDate.lower, mkEDTF, spanRec, dayStart, dated]
    · rw [c2]; simp [EDTFDate.upper, mkEDTF, spanRec, dayEnd, dated]

/-- The example of the theorem: 1985-12-25, written with an unspecified decade. -/
example : (⟨false, c! "19X5", .day (c! "12") (c! "25")⟩ : XDate).Reads 1985 12 25 :=
  ⟨by decide, ⟨1985, by decide, rfl, by simp [Fits, pad4, dig]⟩, by simp [Fits, pad2, dig]⟩

example : (⟨false, c! "156X", .day (c! "12") (c! "25")⟩ : XDate).ok ∧
    ∃ r, parseString (⟨false, c! "156X", .day (c! "12") (c! "25")⟩ : XDate).text = .ok r :=
  ⟨⟨rfl, fun c hc => xdigit_iff.2 (by revert c; decide), rfl, fun c hc => xdigit_iff.2 (by revert c; decide), rfl,
    fun c hc => xdigit_iff.2 (by revert c; decide)⟩, _, rfl⟩

/-- C20 fails when the month is written "0X": 1984-0X parses, 31 January 1984
is a reading, and the span starts in October. -/
theorem C20_negation (hf : DayCount f) :
    ¬ ∀ (x : XDate) (r : EDTFDate) (y : Int) (m d : Nat), x.ok → 'X' ∈ x.text → parseString x.text = .ok r → x.Reads y m d →
      ∃ lo hi, r.lower = .ok lo ∧ r.upper = .ok hi ∧ lo ≤ 86400 * f y m d ∧ 86400 * f y m d + 86399 ≤ hi := by
  intro h
  obtain ⟨lo, hi, e1, e2, l1, l2⟩ := h ⟨false, c! "1984", .month (c! "0X")⟩ _ 1984 1 31
    ⟨rfl, fun c hc => xdigit_iff.2 (by revert c; decide), rfl, fun c hc => xdigit_iff.2 (by revert c; decide)⟩ (by decide)
    (show parseString (c! "1984-0X") = .ok _ from rfl)
    ⟨by decide, ⟨1984, by decide, rfl, by simp [Fits, pad4, dig]⟩, by simp [Fits, pad2, dig]⟩
  have e : (86400 * unixDay 1984 10 1 : Int) = lo := Res.ok.inj e1
  rw [dayCount_eq hf (by decide)] at l1
  rw [← e] at l1
  exact absurd l1 (by decide)

/-! ### C21 -/

theorem monthLen_30 (y : Int) {m : Nat} (h : m ≠ 2) : 30 ≤ monthLen y m := by
  unfold monthLen; split <;> simp_all

theorem monthLen_29 (y : Int) : monthLen y 2 ≤ 29 := by
  show (if Leap y then 29 else 28) ≤ 29
  split <;> omega

theorem daySpan_3X {l1 l2 d1 d2 : Nat} (h : DaySpan ['3', 'X'] l1 l2 d1 d2) : d1 = 30 := by
  generalize hs : (['3', 'X'] : Str) = s at h
  cases h with
  | plain => exact absurd (show 'X' ∈ pad2 _ by rw [← hs]; simp) (pad2_noX _)
  | zero => exact absurd (show 'X' ∈ pad2 0 by rw [← hs]; simp) (pad2_noX _)
  | x3 => rfl
  | _ => cases hs

/-- The first and the last day of the span are readings. -/
theorem span_tight {x : XDate} (h : x.ok) (hm : x.mx ≠ ['0', 'X']) (hd0 : x.dx ≠ ['0', '0']) {y1 y2 : Int} {m1 m2 d1 d2 : Nat} {py : Prec}
    (hY : YearSpan (sgn x.neg x.year) y1 y2 py) (hM : MonthSpan x.mx m1 m2) (hD : DaySpan x.dx (monthLen y1 m1) (monthLen y2 m2) d1 d2)
    (V1 : Valid y1 m1 d1) (V2 : Valid y2 m2 d2) : x.Reads y1 m1 d1 ∧ x.Reads y2 m2 d2 := by
  obtain ⟨-, ⟨n1, hn1, ey1, fy1⟩, ⟨n2, hn2, ey2, fy2⟩⟩ := yearSpan_reads h.1 (xall h.2.1) hY
  have L1 := monthLen_pos y1 m1
  have L2 := monthLen_pos y2 m2
  have main : x.Reads y1 m1 d1 ∧ x.Reads y2 m2 d2 := by
    unfold XDate.mx at hM hm
    unfold XDate.dx at hD hd0
    have hok := h.2.2
    cases ht : x.tail with
    | none => exact ⟨⟨V1, ⟨n1, hn1, ey1, fy1⟩, by rw [ht]; trivial⟩, ⟨V2, ⟨n2, hn2, ey2, fy2⟩, by rw [ht]; trivial⟩⟩
    | month w =>
      rw [ht] at hM hm hok
      simp only at hM hm hok
      obtain ⟨-, g1, g2⟩ := monthSpan_reads hM (by intro h0; rw [h0] at hok; exact absurd hok.1 (by decide)) hm
      exact ⟨⟨V1, ⟨n1, hn1, ey1, fy1⟩, by rw [ht]; exact g1⟩, ⟨V2, ⟨n2, hn2, ey2, fy2⟩, by rw [ht]; exact g2⟩⟩
    | day w v =>
      rw [ht] at hM hm hok hD hd0
      simp only at hM hm hok hD hd0
      obtain ⟨-, g1, g2⟩ := monthSpan_reads hM (by intro h0; rw [h0] at hok; exact absurd hok.1 (by decide)) hm
      obtain ⟨k1, k2⟩ := (daySpan_reads hD (by intro h0; rw [h0] at hok; exact absurd hok.2.2.1 (by decide)) L1.2 L2.2).2 hd0
        (by omega) (by omega) (by
          intro e3
          rw [e3] at hD
          have hd1 : d1 = 30 := daySpan_3X hD
          have h30 : 30 ≤ monthLen y1 m1 := hd1 ▸ V1.2.2.2
          have hne : m1 ≠ 2 := by
            rintro rfl
            have := monthLen_29 y1
            omega
          have : m2 ≠ 2 := by
            cases hM <;> omega
          exact monthLen_30 y2 this)
      exact ⟨⟨V1, ⟨n1, hn1, ey1, fy1⟩, by rw [ht]; exact ⟨g1, k1⟩⟩, ⟨V2, ⟨n2, hn2, ey2, fy2⟩, by rw [ht]; exact ⟨g2, k2⟩⟩⟩
  exact main

/-- C21, the part that holds: unless the month is written "0X" or the day "00"
the span of a date with unspecified digits that parses starts with the first
second of a reading and ends with the last second of a reading, provided that
the year or the month has an unspecified digit. -/
theorem C21_tight_partial (hf : DayCount f) {x : XDate} (h : x.ok) (hX : 'X' ∈ x.text) (hm : x.mx ≠ ['0', 'X']) (hd0 : x.dx ≠ ['0', '0'])
    (hw : 'X' ∈ x.year ∨ 'X' ∈ x.mx) {r : EDTFDate} (hp : parseString x.text = .ok r) :
    (∃ y m d, x.Reads y m d ∧ r.lower = .ok (86400 * f y m d)) ∧ (∃ y m d, x.Reads y m d ∧ r.upper = .ok (86400 * f y m d + 86399)) := by
  rcases xparse h hX hp with ⟨hs, hl, -⟩ | ⟨sp, l, ft, hd, rfl, -⟩
  · obtain ⟨n', m', d', hn', hm', e⟩ := xseason h hX hs
    rw [e] at hw
    rcases hw with hw | hw
    · exact absurd hw (pad4_noX _)
    · exact absurd hw (pad2_noX _)
  · obtain ⟨F, y1, y2, m1, m2, d1, d2, py, hF, e, hY, hM, hD, V1, V2, rfl⟩ := dateSpan_inv hd
    obtain ⟨f1, f2, f3, -⟩ := xform h hF e
    rw [f1] at hY
    rw [f2] at hM
    rw [f3] at hD
    have c1 := dayCount_eq hf V1
    have c2 := dayCount_eq hf V2
    have main := span_tight h hm hd0 hY hM hD V1 V2
    refine ⟨⟨_, _, _, main.1, ?_⟩, ⟨_, _, _, main.2, ?_⟩⟩
    · rw [c1]; simp [EDTFDate.lower, mkEDTF, spanRec, dayStart, dated]
    · rw [c2]; simp [EDTFDate.upper, mkEDTF, spanRec, dayEnd, dated]

example : (c! "1985-XX-12") = (⟨false, c! "1985", .day (c! "XX") (c! "12")⟩ : XDate).text ∧ ∃ r, parseString (c! "1985-XX-12") = .ok r :=
  ⟨rfl, _, rfl⟩

/-- The day part of the Level 1 pattern for unspecified digits. -/
def dayAlt : Re := (.cls false [('0', '0'), ('1', '1'), ('2', '2'), ('X', 'X')] ⬝ .cls false [('1', '9'), ('X', 'X')]) ∥
       (.cls false [('3', '3'), ('X', 'X')] ⬝ .cls false [('0', '0'), ('1', '1'), ('X', 'X')])

theorem dayAlt_table : ∀ a ∈ (c! "X0123456789"), ∀ b ∈ (c! "X0123456789"), 'X' ∈ [a, b] →
    (Rx.anch dayAlt).matchString [a, b] = true ∨ (b = 'X' ∧ a ∈ (c! "456789")) := by decide +kernel

theorem xdigit_mem {c : Char} (h : XDigit c) : c ∈ (c! "X0123456789") := by
  rcases h with rfl | ⟨k, hk, rfl⟩
  · decide
  · revert k; decide

theorem daySpan_no {a : Char} {l1 l2 d1 d2 : Nat} (ha : a ∈ (c! "456789")) (h : DaySpan [a, 'X'] l1 l2 d1 d2) : False := by
  generalize hs : ([a, 'X'] : Str) = s at h
  cases h with
  | plain => exact absurd (show 'X' ∈ pad2 _ by rw [← hs]; simp) (pad2_noX _)
  | zero => exact absurd (show 'X' ∈ pad2 0 by rw [← hs]; simp) (pad2_noX _)
  | none => cases hs
  | _ => injection hs with hs _; subst hs; exact absurd ha (by decide)

/-- Such a date is read by the season parser. -/
theorem xday_season {n m : Nat} {w : Str} (h : (⟨false, pad4 n, .day (pad2 m) w⟩ : XDate).ok) (hX : 'X' ∈ w) (hn : n < 10000)
    (h1 : 1 ≤ m) (h2 : m ≤ 12) {r : EDTFDate} (hp : parseString (⟨false, pad4 n, .day (pad2 m) w⟩ : XDate).text = .ok r) :
    L1.isSeason (⟨false, pad4 n, .day (pad2 m) w⟩ : XDate).text = true ∧ L1.isLevel1 (⟨false, pad4 n, .day (pad2 m) w⟩ : XDate).text = true := by
  have hs : L1.isSeason (⟨false, pad4 n, .day (pad2 m) w⟩ : XDate).text = true := by
    rw [xtext]
    exact (C49_exact_partial _).2 (Or.inl ⟨false, n, m, '-' :: w, hn, Or.inl ⟨h1, h2⟩, rfl⟩)
  refine ⟨hs, ?_⟩
  have hXt : 'X' ∈ (⟨false, pad4 n, .day (pad2 m) w⟩ : XDate).text := by rw [xtext]; simp [sgn, hX]
  obtain ⟨-, -, -, -, hl, hw⟩ := id h
  obtain ⟨a, b, rfl⟩ := two_chars hl
  rcases dayAlt_table a (xdigit_mem (hw a (by simp))) b (xdigit_mem (hw b (by simp))) hX with ht | ⟨rfl, ha⟩
  · rw [matchString_anch _ (by decide)] at ht
    rw [isLevel1_iff]
    refine Or.inr (Or.inr (Or.inr (Or.inr (Or.inl (lang_ci_mono _ (by decide) ?_)))))
    rw [xtext]
    refine ⟨pad4 n, _, rfl, (lang_rep4 (fun w => lang_digX (w := w))).2 ⟨_, _, _, _, rfl, ?_, ?_, ?_, ?_⟩, Or.inr ⟨['-'], _, rfl, lang_lit.2 rfl, pad2 m, _, rfl, ?_, Or.inr ⟨['-'], _, rfl, lang_lit.2 rfl, ht⟩⟩⟩
    · simp [isDX]
    · simp [isDX]
    · simp [isDX]
    · simp [isDX]
    · have : ∀ m, m < 13 → 1 ≤ m → (Rx.anch Rx.monthX).matchString (pad2 m) = true := by decide +kernel
      have := this m (by omega) h1
      rw [matchString_anch _ (by decide)] at this
      exact this
  · rcases xparse h hXt hp with ⟨-, hl, -⟩ | ⟨sp, l, ft, hd, -, -⟩
    · exact hl
    · exfalso
      obtain ⟨F, y1, y2, m1, m2, d1, d2, py, hF, e, hY, hM, hD, -⟩ := dateSpan_inv hd
      obtain ⟨f1, f2, f3, -⟩ := xform h hF e
      rw [f3] at hD
      exact daySpan_no ha hD

/-- With year and month in digits the result is the whole month, whatever the
day, so the span is tight exactly when the first and the last day of the month
are readings. -/
theorem C21_month_partial (hf : DayCount f) {n m : Nat} {w : Str} (h : (⟨false, pad4 n, .day (pad2 m) w⟩ : XDate).ok) (hX : 'X' ∈ w) (hn : n < 10000)
    (h1 : 1 ≤ m) (h2 : m ≤ 12) {r : EDTFDate} (hp : parseString (⟨false, pad4 n, .day (pad2 m) w⟩ : XDate).text = .ok r) :
    ((∃ y' m' d', (⟨false, pad4 n, .day (pad2 m) w⟩ : XDate).Reads y' m' d' ∧ r.lower = .ok (86400 * f y' m' d')) ∧
     (∃ y' m' d', (⟨false, pad4 n, .day (pad2 m) w⟩ : XDate).Reads y' m' d' ∧ r.upper = .ok (86400 * f y' m' d' + 86399))) ↔
    (Fits w (pad2 1) ∧ Fits w (pad2 (monthLen n m))) := by
  obtain ⟨hs, hl⟩ := xday_season h hX hn h1 h2 hp
  have hXt : 'X' ∈ (⟨false, pad4 n, .day (pad2 m) w⟩ : XDate).text := by rw [xtext]; simp [sgn, hX]
  have h0 := not_level0_char (s := (⟨false, pad4 n, .day (pad2 m) w⟩ : XDate).text) hXt (by decide)
  have hr := xseason_result hf hn h1 h2 h0 hl hp
  simp only [Bool.false_eq_true, if_false] at hr
  obtain ⟨b1, b2⟩ := monthsResult_bounds (f := f) (⟨false, pad4 n, .day (pad2 m) w⟩ : XDate).text 1 (c! "Seasons") n m n m
  rw [← hr] at b1 b2
  have V1 := valid_first (y := (n : Int)) h1 h2
  have V2 := valid_last (y := (n : Int)) h1 h2
  have ey : (⟨false, pad4 n, .day (pad2 m) w⟩ : XDate).Reads n m 1 ↔ Fits w (pad2 1) :=
    ⟨fun h => h.2.2.2, fun h => ⟨V1, ⟨n, hn, rfl, (fits_eq (pad4_noX _)).2 rfl⟩, (fits_eq (pad2_noX _)).2 rfl, h⟩⟩
  have ez : (⟨false, pad4 n, .day (pad2 m) w⟩ : XDate).Reads n m (monthLen n m) ↔ Fits w (pad2 (monthLen n m)) :=
    ⟨fun h => h.2.2.2, fun h => ⟨V2, ⟨n, hn, rfl, (fits_eq (pad4_noX _)).2 rfl⟩, (fits_eq (pad2_noX _)).2 rfl, h⟩⟩
  have eq : ∀ {y' : Int} {m' d' : Nat}, (⟨false, pad4 n, .day (pad2 m) w⟩ : XDate).Reads y' m' d' → y' = n ∧ m' = m := by
    rintro y' m' d' ⟨V, ⟨n', hn', rfl, g⟩, g2, -⟩
    refine ⟨?_, (pad2_inj (by omega) (by have := V.2.1; omega) ((fits_eq (pad2_noX _)).1 g2)).symm⟩
    rw [pad4_inj hn hn' ((fits_eq (pad4_noX _)).1 g)]; rfl
  constructor
  · rintro ⟨⟨y1, m1, d1, r1, e1⟩, ⟨y2, m2, d2, r2, e2⟩⟩
    obtain ⟨rfl, rfl⟩ := eq r1
    obtain ⟨rfl, rfl⟩ := eq r2
    rw [e1, dayCount_eq hf V1, dayCount_eq hf r1.1] at b1
    rw [e2, dayCount_eq hf V2, dayCount_eq hf r2.1] at b2
    have b1 := Res.ok.inj b1
    have b2 := Res.ok.inj b2
    unfold unixDay at b1 b2
    have k1 : d1 = 1 := by omega
    have k2 : d2 = monthLen n m2 := by omega
    rw [k1] at r1
    rw [k2] at r2
    exact ⟨ey.1 r1, ez.1 r2⟩
  · rintro ⟨g1, g2⟩
    exact ⟨⟨_, _, _, ey.2 g1, b1⟩, ⟨_, _, _, ez.2 g2, b2⟩⟩

/-- 1985-04-XX is tight and 1985-12-1X is not. -/
example : (∃ r, parseString (c! "1985-04-XX") = .ok r) ∧ (Fits (c! "XX") (pad2 1) ∧ Fits (c! "XX") (pad2 (monthLen 1985 4))) ∧
    (∃ r, parseString (c! "1985-12-1X") = .ok r) ∧ ¬ (Fits (c! "1X") (pad2 1) ∧ Fits (c! "1X") (pad2 (monthLen 1985 12))) := by
  refine ⟨⟨_, rfl⟩, by simp [Fits, pad2], ⟨_, rfl⟩, by simp [Fits, pad2, dig]⟩

/-- C21 fails: 1985-12-1X parses as all of December, and no reading is on the 1st;
1984-XX-00 parses and has no reading at all. -/
theorem C21_negation (hf : DayCount f) :
    ¬ (∀ (x : XDate) (r : EDTFDate), x.ok → 'X' ∈ x.text → parseString x.text = .ok r →
      ∃ y m d, x.Reads y m d ∧ r.lower = .ok (86400 * f y m d)) ∧
    ∃ (x : XDate) (r : EDTFDate), x.ok ∧ 'X' ∈ x.text ∧ parseString x.text = .ok r ∧ ∀ y m d, ¬ x.Reads y m d := by
  constructor
  · intro h
    have hx : (⟨false, pad4 1985, .day (pad2 12) (c! "1X")⟩ : XDate).ok :=
      ⟨rfl, fun c hc => xdigit_iff.2 (by revert c; decide), rfl, fun c hc => xdigit_iff.2 (by revert c; decide), rfl,
        fun c hc => xdigit_iff.2 (by revert c; decide)⟩
    obtain ⟨y, m, d, hr, e⟩ := h _ _ hx (by decide) (show parseString (c! "1985-12-1X") = .ok _ from rfl)
    obtain ⟨V, ⟨n, hn, rfl, g1⟩, g2, g3⟩ := id hr
    have e1 : (86400 * unixDay 1985 12 1 : Int) = 86400 * f _ m d := Res.ok.inj e
    rw [dayCount_eq hf V] at e1
    have k1 := pad4_inj (by decide) hn ((fits_eq (pad4_noX _)).1 g1)
    have k2 := pad2_inj (by decide) (by have := V.2.1; omega) ((fits_eq (pad2_noX _)).1 g2)
    subst k1 k2
    unfold unixDay at e1
    have k3 : d = 1 := by simp at e1; omega
    subst k3
    simp [Fits, pad2, dig] at g3
  · refine ⟨⟨false, c! "1984", .day (c! "XX") (c! "00")⟩, _, ⟨rfl, fun c hc => xdigit_iff.2 (by revert c; decide), rfl,
      fun c hc => xdigit_iff.2 (by revert c; decide), rfl, fun c hc => xdigit_iff.2 (by revert c; decide)⟩, by decide,
      show parseString (c! "1984-XX-00") = .ok _ from rfl, ?_⟩
    rintro y m d ⟨V, -, -, g⟩
    have g : Fits (pad2 0) (pad2 d) := g
    have := pad2_inj (by decide) (by have := V.2.2.2; have := monthLen_pos y m; omega) ((fits_eq (pad2_noX _)).1 g)
    have := V.2.2.1
    omega

end EDTF
