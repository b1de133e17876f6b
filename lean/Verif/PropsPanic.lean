/- C15: which strings end the program. -/
import Verif.PropsExp
namespace EDTF
open Spec

/-- The years that can stand before "S": the text and the value. -/
inductive SigYear : Str → Int → Prop
  | date (neg : Bool) (n : Nat) (h : n < 10000) : SigYear (⟨neg, n, .none⟩ : Date0).text (if neg then -(n : Int) else n)
  | letter (neg : Bool) (us : List Nat) (hu : ∀ d ∈ us, d < 10) (h0 : us ≠ []) (hl : us.length + (if neg then 1 else 0) ≤ 4) :
      SigYear ('Y' :: ((if neg then ['-'] else []) ++ us.map dig)) (if neg then -(value10 us : Int) else value10 us)
  | exp (yc ec : Char) (hy : yc = 'Y' ∨ yc = 'y') (he : ec = 'E' ∨ ec = 'e') (neg : Bool) (ms es : List Nat) (hm : ∀ d ∈ ms, d < 10)
      (hm0 : ms ≠ []) (hes : ∀ d ∈ es, d < 10) (he0 : es ≠ []) (hb : value10 es < 2 ^ 63) (h : value10 ms * 10 ^ value10 es < 10000) :
      SigYear (yc :: ((if neg then ['-'] else []) ++ ms.map dig ++ ec :: es.map dig))
        (if neg then -((value10 ms * 10 ^ value10 es : Nat) : Int) else (value10 ms * 10 ^ value10 es : Nat))

/-! ### Digits -/

theorem digVal_dig' {c : Char} (h : isDig c = true) : dig (digVal c) = c ∧ digVal c < 10 := by
  obtain ⟨k, hk, rfl⟩ := (isDig_iff c).1 h
  rw [digVal_dig_lt k hk]
  exact ⟨rfl, hk⟩

theorem digits_exist {w : Str} (h : w.all isDig = true) : ∃ ds : List Nat, (∀ d ∈ ds, d < 10) ∧ w = ds.map dig := by
  induction w with
  | nil => exact ⟨[], by simp, rfl⟩
  | cons c w ih =>
    simp only [List.all_cons, Bool.and_eq_true] at h
    obtain ⟨ds, h1, rfl⟩ := ih h.2
    obtain ⟨h2, h3⟩ := digVal_dig' h.1
    exact ⟨digVal c :: ds, by simpa using ⟨h3, h1⟩, by simp [h2]⟩

theorem lang_signed_iff {w : Str} : Lang (.opt (Rx.lit '-') ⬝ .plus Rx.digit) w ↔
    ∃ neg us, us.all isDig = true ∧ us ≠ [] ∧ w = sgn neg us := by
  constructor
  · intro h
    obtain ⟨u, v, rfl, hu, hv⟩ := lang_cat.1 h
    obtain ⟨a, b⟩ := lang_plusDigit.1 hv
    rcases hu with rfl | hu
    · exact ⟨false, v, a, b, rfl⟩
    · rw [lang_lit.1 hu]; exact ⟨true, v, a, b, rfl⟩
  · rintro ⟨neg, us, h1, h2, rfl⟩
    exact lang_signed h1 h2

theorem value10_lt {us : List Nat} (h : ∀ d ∈ us, d < 10) : value10 us < 10 ^ us.length := by
  suffices ∀ acc, us.foldl (fun acc d => 10 * acc + d) acc < (acc + 1) * 10 ^ us.length by simpa [value10] using this 0
  induction us with
  | nil => intro acc; simp
  | cons d us ih =>
    intro acc
    have hd := h d (by simp)
    refine Nat.lt_of_lt_of_le (ih (fun x hx => h x (by simp [hx])) _) ?_
    rw [List.length_cons, Nat.pow_succ, Nat.mul_comm (10 ^ us.length), ← Nat.mul_assoc]
    exact Nat.mul_le_mul_right _ (by show 10 * acc + d + 1 ≤ _; omega)

/-! ### Exponential years -/

theorem exp_panic {yc ec : Char} (hyc : yc = 'Y' ∨ yc = 'y') (hec : ec = 'E' ∨ ec = 'e') {neg : Bool} {ms es : Str} (hm : ms.all isDig = true)
    (hm0 : ms ≠ []) (he : es.all isDig = true) (he0 : es ≠ []) :
    parseString (yc :: sgn neg (ms ++ ec :: es)) = .panic ↔
      digitsVal es < 2 ^ 63 ∧ BF.ofExp (digitsVal ms) (digitsVal es) = some .inf := by
  rw [parse_exp' hyc hec hm hm0 he he0, exponential_eq neg hec hm hm0 he he0]
  by_cases h63 : 2 ^ 63 ≤ digitsVal es
  · rw [if_pos h63]
    constructor
    · intro h; cases h
    · intro h; omega
  rw [if_neg h63]
  have tail : ∀ v, (dateSpanFromEDTF (itoa v) >>= fun sp => Res.ok (mkEDTF sp (yc :: sgn neg (ms ++ ec :: es)) 2 (c! "Exponential year"))) ≠ .panic :=
    fun v => Res.Safe.bind (dateSpanFromEDTF_safe _) fun _ _ => Res.Safe.ok
  cases ho : BF.ofExp (digitsVal ms) (digitsVal es) with
  | none => exact ⟨fun h => (nomatch h), fun h => (nomatch h.2)⟩
  | some b =>
    cases b with
    | inf => exact ⟨fun _ => ⟨by omega, rfl⟩, fun _ => rfl⟩
    | fin q x =>
      have hsafe : (expTail neg (sgn neg (ms ++ ec :: es)) (some (.fin q x))).Safe := by
        unfold expTail
        exact Res.Safe.ite (fun _ => Res.Safe.err) fun _ => Res.Safe.ok
      exact ⟨fun h => absurd h (Res.Safe.bind hsafe fun v _ => tail v), fun h => nomatch h.2⟩

/-! ### Significant digits -/

theorem plainLen_le (v : Int) : plainLen v ≤ 5 := by
  unfold plainLen
  repeat' split
  all_goals omega

theorem sigTail_panic {s : Str} {v : Int} {k : Nat} (hv : v.natAbs < 10000) :
    sigTail s v k = .panic ↔ plainLen v < k ∧ k < 10 ^ plainLen v := by
  have hle : 10 ^ plainLen v ≤ 10 ^ 5 := Nat.pow_le_pow_right (by decide) (plainLen_le v)
  unfold sigTail
  by_cases h : 2 ^ 63 ≤ k ∨ 10 ^ plainLen v ≤ k
  · rw [if_pos h]
    constructor
    · intro h; cases h
    · intro h; omega
  rw [if_neg h]
  have h' : k < 10 ^ plainLen v := by omega
  unfold L2.sigString
  simp only [itoa_length hv]
  by_cases hk : plainLen v < k
  · rw [if_pos hk]
    exact ⟨fun _ => ⟨hk, h'⟩, fun _ => rfl⟩
  · rw [if_neg hk]
    constructor
    · intro hp
      exfalso
      refine (?_ : Res.Safe _) hp
      exact Res.Safe.bind (Res.Safe.ite (fun _ => Res.Safe.ok) fun _ => Res.Safe.ok) fun _ _ =>
        Res.Safe.bind (dateSpanFromEDTF_safe _) fun _ _ => Res.Safe.ok
    · intro hp; exact absurd hp.1 hk

/-- A significant-digits string is decided by that parser alone. -/
theorem parse_sig' {s : Str} (h0 : L0.isLevel0 s = false) (h1 : L1.isLevel1 s = false) (he : L2.isExponentialYear s = false)
    (hs : L2.isSignificantDigits s = true) : parseString s = L2.parseSignificantDigits s := by
  rw [parse_level2 h0 h1 (isLevel2_of (Or.inr (Or.inl hs)))]
  unfold L2.parseString
  rw [he, hs]
  rfl

theorem sgn_eq (neg : Bool) (w : Str) : sgn neg w = (if neg then ['-'] else []) ++ w := by cases neg <;> rfl

theorem mem_sgn {neg : Bool} {w : Str} {c : Char} (hc : c ≠ '-') : c ∈ sgn neg w ↔ c ∈ w := by
  cases neg <;> simp [sgn, hc]

/-- The submatches are determined by the string: the year and the number are
separated by the last "S". -/
theorem sig_split {y1 y2 d1 d2 : Str} (h1 : d1.all isDig = true) (h2 : d2.all isDig = true) (h : y1 ++ 'S' :: d1 = y2 ++ 'S' :: d2) :
    y1 = y2 ∧ d1 = d2 := by
  have e := congrArg List.reverse h
  simp only [List.reverse_append, List.reverse_cons, List.append_assoc, List.singleton_append] at e
  have n1 : 'S' ∉ d1.reverse := by simpa using digits_not_mem h1 (by decide)
  have n2 : 'S' ∉ d2.reverse := by simpa using digits_not_mem h2 (by decide)
  obtain ⟨a, b⟩ := char_split n1 n2 e
  exact ⟨List.reverse_inj.1 b, List.reverse_inj.1 a⟩

/-- The "E" is inside the notation, so nothing ends a plain signed number there. -/
theorem signed_not_notation {neg neg' : Bool} {us ms es : Str} {ec : Char} (hec : ec = 'E' ∨ ec = 'e') (hu : us.all isDig = true) :
    sgn neg us ≠ sgn neg' (ms ++ ec :: es) := by
  intro h
  have h1 : ec ∈ sgn neg' (ms ++ ec :: es) := by rcases hec with rfl | rfl <;> exact (mem_sgn (by decide)).2 (by simp)
  rw [← h] at h1
  rcases hec with rfl | rfl
  · exact digits_not_mem hu (by decide) ((mem_sgn (by decide)).1 h1)
  · exact digits_not_mem hu (by decide) ((mem_sgn (by decide)).1 h1)

theorem yearStr_head {neg : Bool} {n : Nat} {yc : Char} {t : Str} (hyc : yc = 'Y' ∨ yc = 'y') : yearStr neg n ≠ yc :: t := by
  intro h
  have : yc ∈ yearStr neg n := by rw [h]; simp
  rcases hyc with rfl | rfl
  · exact yearStr_not_mem _ _ (by decide) (by decide) this
  · exact yearStr_not_mem _ _ (by decide) (by decide) this

/-- Level 0 and level 1 have no string with a "Y" or "y" in front and an "S". -/
theorem prefixed_level01 {yc : Char} (hyc : yc = 'Y' ∨ yc = 'y') {t : Str} (hS : 'S' ∈ t) :
    L0.isLevel0 (yc :: t) = false ∧ L1.isLevel1 (yc :: t) = false := by
  have hY : yc ∈ yc :: t := by simp
  have hS' : 'S' ∈ yc :: t := by simp [hS]
  generalize yc :: t = s at *
  refine ⟨not_level0_char hS' (by decide), Bool.eq_false_iff.2 fun h => ?_⟩
  rcases hyc with rfl | rfl
  all_goals
    rcases isLevel1_iff.1 h with h | h | h | h | h | h | h | h
    · exact not_lang_of_char (c := 'S') (by decide) hS' h
    all_goals
      first
      | exact not_lang_of_char (c := 'Y') (by decide) hY h
      | exact not_lang_of_char (c := 'y') (by decide) hY h

/-- Nor is such a string an exponential year: that has no "S". -/
theorem s_not_exponential {s : Str} (hS : 'S' ∈ s) : L2.isExponentialYear s = false := by
  cases h : L2.isExponentialYear s with
  | false => rfl
  | true => exact absurd (isExponential_iff.1 h) (not_lang_of_char (c := 'S') (by decide) hS)

theorem letter_sig {neg : Bool} {us ds : Str} (hu : us.all isDig = true) (h0 : us ≠ []) (hd : ds.all isDig = true) (hne : ds ≠ []) :
    ∃ m, Rx.SignificantDigits.submatch ('Y' :: (sgn neg us ++ 'S' :: ds)) = some m ∧ m 1 = [] ∧ m 2 = sgn neg us ∧ m 3 = [] ∧ m 4 = ds ∧
      parseString ('Y' :: (sgn neg us ++ 'S' :: ds)) = L2.parseSignificantDigits ('Y' :: (sgn neg us ++ 'S' :: ds)) := by
  have hs : L2.isSignificantDigits ('Y' :: (sgn neg us ++ 'S' :: ds)) = true :=
    isSig_iff.2 (lang_cat.2 ⟨'Y' :: sgn neg us, _, rfl, Or.inr (Or.inl (lang_cat.2 ⟨['Y'], _, rfl, lang_lit.2 rfl, lang_grp.2 (lang_signed hu h0)⟩)),
      lang_cat.2 ⟨['S'], ds, rfl, lang_lit.2 rfl, lang_plusDigit.2 ⟨hd, hne⟩⟩⟩)
  obtain ⟨p0, p1⟩ := prefixed_level01 (yc := 'Y') (Or.inl rfl) (t := sgn neg us ++ 'S' :: ds) (by simp)
  have hp := parse_sig' p0 p1 (s_not_exponential (by simp)) hs
  unfold L2.isSignificantDigits at hs
  rw [← isSome_submatch, Option.isSome_iff_exists] at hs
  obtain ⟨m, hm⟩ := hs
  obtain ⟨h4, h⟩ := sig_caps hm
  have hm4 := (lang_plusDigit.1 h4).1
  rcases h with ⟨hy, -, -, e⟩ | ⟨e1, -, e3, e⟩ | ⟨-, -, hn, c, hc, e⟩
  · obtain ⟨neg', n', -, e'⟩ := lang_year4'.1 hy
    rw [e', ← List.cons_append] at e
    exact absurd (sig_split hd hm4 e).1.symm (yearStr_head (Or.inl rfl))
  · rw [← List.cons_append, ← List.cons_append] at e
    obtain ⟨a, b⟩ := sig_split hd hm4 e
    injection a with _ a
    exact ⟨m, hm, e1, a.symm, e3, b.symm, hp⟩
  · rw [← List.cons_append, ← List.cons_append] at e
    obtain ⟨a, -⟩ := sig_split hd hm4 e
    injection a with _ a
    obtain ⟨neg', ms, es, ec, hec, -, -, -, -, e'⟩ := lang_notation.1 hn
    rw [e'] at a
    exact absurd a (signed_not_notation hec hu)

theorem exp_sig {yc ec : Char} (hyc : yc = 'Y' ∨ yc = 'y') (hec : ec = 'E' ∨ ec = 'e') {neg : Bool} {ms es ds : Str} (hm : ms.all isDig = true)
    (hm0 : ms ≠ []) (he : es.all isDig = true) (he0 : es ≠ []) (hd : ds.all isDig = true) (hne : ds ≠ []) :
    ∃ m, Rx.SignificantDigits.submatch (yc :: (sgn neg (ms ++ ec :: es) ++ 'S' :: ds)) = some m ∧ m 1 = [] ∧ m 2 = [] ∧
      m 3 = sgn neg (ms ++ ec :: es) ∧ m 4 = ds ∧
      parseString (yc :: (sgn neg (ms ++ ec :: es) ++ 'S' :: ds)) = L2.parseSignificantDigits (yc :: (sgn neg (ms ++ ec :: es) ++ 'S' :: ds)) := by
  have hs : L2.isSignificantDigits (yc :: (sgn neg (ms ++ ec :: es) ++ 'S' :: ds)) = true :=
    isSig_iff.2 (lang_cat.2 ⟨yc :: sgn neg (ms ++ ec :: es), _, rfl, Or.inr (Or.inr (exp_lang hyc hec hm hm0 he he0)),
      lang_cat.2 ⟨['S'], ds, rfl, lang_lit.2 rfl, lang_plusDigit.2 ⟨hd, hne⟩⟩⟩)
  obtain ⟨p0, p1⟩ := prefixed_level01 hyc (t := sgn neg (ms ++ ec :: es) ++ 'S' :: ds) (by simp)
  have hp := parse_sig' p0 p1 (s_not_exponential (by simp)) hs
  unfold L2.isSignificantDigits at hs
  rw [← isSome_submatch, Option.isSome_iff_exists] at hs
  obtain ⟨m, hm'⟩ := hs
  obtain ⟨h4, h⟩ := sig_caps hm'
  have hm4 := (lang_plusDigit.1 h4).1
  rcases h with ⟨hy, -, -, e⟩ | ⟨e1, h2, e3, e⟩ | ⟨e1, e2, hn, c, hc, e⟩
  · obtain ⟨neg', n', -, e'⟩ := lang_year4'.1 hy
    rw [e', ← List.cons_append] at e
    exact absurd (sig_split hd hm4 e).1.symm (yearStr_head hyc)
  · rw [← List.cons_append, ← List.cons_append] at e
    obtain ⟨a, b⟩ := sig_split hd hm4 e
    injection a with _ a
    obtain ⟨neg', us, hu, -, e'⟩ := lang_signed_iff.1 h2
    rw [e'] at a
    exact absurd a.symm (signed_not_notation hec hu)
  · rw [← List.cons_append, ← List.cons_append] at e
    obtain ⟨a, b⟩ := sig_split hd hm4 e
    injection a with _ a
    exact ⟨m, hm', e1, e2, a.symm, b.symm, hp⟩

theorem atoi_signed {neg : Bool} {us : List Nat} (hu : ∀ d ∈ us, d < 10) (h0 : us ≠ []) (h : value10 us < 2 ^ 63) :
    atoi (sgn neg (us.map dig)) = some (if neg then -(value10 us : Int) else value10 us) := by
  have h1 : us.map dig ≠ [] := by simpa using h0
  cases neg
  · show parseInt 64 (us.map dig) = _
    rw [parseInt_digits 64 (all_dig hu) h1, digitsVal_map us hu, if_pos h]; rfl
  · show parseInt 64 ('-' :: us.map dig) = _
    rw [parseInt_neg 64 (all_dig hu) h1, digitsVal_map us hu, if_pos (by omega)]; rfl

theorem sigYear_eq {t : Str} {v : Int} (h : SigYear t v) {ds : List Nat} (hd : ∀ d ∈ ds, d < 10) (hne : ds ≠ []) :
    v.natAbs < 10000 ∧ parseString (t ++ 'S' :: ds.map dig) = sigTail (t ++ 'S' :: ds.map dig) v (value10 ds) := by
  have hD := all_dig hd
  have hN : ds.map dig ≠ [] := by simpa using hne
  cases h with
  | date neg n h =>
    refine ⟨by split <;> omega, ?_⟩
    rw [date0_year, sig_eq h hD hN, digitsVal_map ds hd]
  | letter neg us hu h0 hl =>
    have hb : value10 us < 10000 := by
      refine Nat.lt_of_lt_of_le (value10_lt hu) ?_
      exact Nat.le_trans (Nat.pow_le_pow_right (by decide) (by omega : us.length ≤ 4)) (by decide)
    have hv : (if neg then -(value10 us : Int) else value10 us).natAbs < 10000 := by split <;> omega
    refine ⟨hv, ?_⟩
    rw [← sgn_eq, List.cons_append]
    obtain ⟨m, hm, m1, m2, m3, m4, hp⟩ := letter_sig (neg := neg) (all_dig hu) (by simpa using h0) hD hN
    rw [hp]
    have e := sig_core hm hv ?_ (by rw [m4]; exact hD) (by rw [m4]; exact hN)
    · rw [m4, digitsVal_map ds hd] at e; exact e
    · have hne2 : sgn neg (us.map dig) ≠ [] := by cases neg <;> simp [sgn, h0]
      have hlen : (sgn neg (us.map dig)).length ≤ 4 := by cases neg <;> simp [sgn] at * <;> omega
      unfold L2.sigYear
      rw [m1, m2, if_neg (by simp), if_pos hne2, if_neg (by omega), atoi_signed hu h0 (by omega)]
  | exp yc ec hy he neg ms es hm hm0 hes he0 hb h =>
    have hval := exp_value' neg he hm hes hm0 he0 hb (by omega)
    generalize hM : value10 ms * 10 ^ value10 es = M at *
    have hv : (if neg then -(M : Int) else M).natAbs < 10000 := by split <;> omega
    refine ⟨hv, ?_⟩
    rw [List.append_assoc, ← sgn_eq, List.cons_append]
    obtain ⟨m, hm', m1, m2, m3, m4, hp⟩ := exp_sig (neg := neg) hy he (all_dig hm) (by simpa using hm0) (all_dig hes) (by simpa using he0) hD hN
    rw [hp]
    have e := sig_core hm' hv ?_ (by rw [m4]; exact hD) (by rw [m4]; exact hN)
    · rw [m4, digitsVal_map ds hd] at e; exact e
    · have hne2 : sgn neg (ms.map dig ++ ec :: es.map dig) ≠ [] := by cases neg <;> simp [sgn]
      unfold L2.sigYear
      rw [m1, m2, m3, if_neg (by simp), if_neg (by simp), if_pos hne2, hval, if_neg (by omega)]

/-! ### C15 -/

/-- C15 for significant digits: the program ends exactly when the number is
larger than the number of characters of the year (written without leading
zeros), but not longer. -/
theorem C15_sig_partial {t : Str} {v : Int} (h : SigYear t v) {ds : List Nat} (hd : ∀ d ∈ ds, d < 10) (hne : ds ≠ []) :
    parseString (t ++ 'S' :: ds.map dig) = .panic ↔ plainLen v < value10 ds ∧ value10 ds < 10 ^ plainLen v := by
  obtain ⟨hv, e⟩ := sigYear_eq h hd hne
  rw [e]
  exact sigTail_panic hv

example : parseString (c! "1950S5") = .panic := (C15_sig_partial (.date false 1950 (by decide)) (ds := [5]) (by decide) (by decide)).2 (by decide)
example : parseString (c! "y2e0S7") = .panic :=
  (C15_sig_partial (.exp 'y' 'e' (Or.inr rfl) (Or.inr rfl) false [2] [0] (by decide) (by decide) (by decide) (by decide) (by decide) (by decide)) (ds := [7])
    (by decide) (by decide)).2 (by decide)
example : parseString (c! "Y-12S100") = .panic :=
  (C15_sig_partial (.letter true [1, 2] (by decide) (by decide) (by decide)) (ds := [1, 0, 0]) (by decide) (by decide)).2 (by decide)

/-- The value of an exponential year that ends the program is at least 2^63. -/
theorem inf_large {m e : Nat} (h : BF.ofExp m e = some .inf) : 2 ^ 63 ≤ m * 10 ^ e := by
  apply Nat.le_of_not_lt
  intro hlt
  obtain ⟨q, x, e1, -⟩ := ofExp_exact (m := m) (e := e) (by omega)
  rw [e1] at h
  cases h

/-- C15, the part that holds: a string that ends the program is either of the
significant-digits kind with too large a number (`C15_sig_partial` shows that
all of these do), or an exponential year of at least 2^63. -/
theorem C15_only_partial {s : Str} (h : parseString s = .panic) :
    (∃ t v ds, SigYear t v ∧ (∀ d ∈ ds, d < 10) ∧ ds ≠ [] ∧ s = t ++ 'S' :: ds.map dig ∧ plainLen v < value10 ds ∧ value10 ds < 10 ^ plainLen v) ∨
    (∃ (yc ec : Char) (neg : Bool) (ms es : List Nat) (tail : Str), (yc = 'Y' ∨ yc = 'y') ∧ (ec = 'E' ∨ ec = 'e') ∧ (∀ d ∈ ms, d < 10) ∧ (∀ d ∈ es, d < 10) ∧
      s = yc :: ((if neg then ['-'] else []) ++ ms.map dig ++ ec :: es.map dig) ++ tail ∧
      (tail = [] ∨ ∃ ds : List Nat, (∀ d ∈ ds, d < 10) ∧ tail = 'S' :: ds.map dig) ∧ 2 ^ 63 ≤ value10 ms * 10 ^ value10 es) := by
  obtain ⟨p0, p1, h12, -⟩ := parse_panic h
  by_cases hx : L2.isExponentialYear s = true
  · right
    unfold L2.isExponentialYear at hx
    rw [← isSome_submatch, Option.isSome_iff_exists] at hx
    obtain ⟨m, hm⟩ := hx
    obtain ⟨yc, hyc, rfl, hn⟩ := exponential_caps hm
    obtain ⟨neg, ms, es, ec, hec, m1, m2, e1, e2, e⟩ := lang_notation.1 hn
    rw [e] at h ⊢
    have hp := (exp_panic (fold_Y.1 hyc) hec m1 m2 e1 e2).1 h
    obtain ⟨ms, a1, rfl⟩ := digits_exist m1
    obtain ⟨es, a2, rfl⟩ := digits_exist e1
    rw [digitsVal_map _ a1, digitsVal_map _ a2] at hp
    refine ⟨yc, ec, neg, ms, es, [], fold_Y.1 hyc, hec, a1, a2, ?_, Or.inl rfl, inf_large hp.2⟩
    rw [List.append_nil, List.append_assoc, ← sgn_eq]
  · have hs : L2.isSignificantDigits s = true := by rcases h12 with h12 | h12; exact absurd h12 hx; exact h12
    have hp := parse_sig' p0 p1 (by simpa using hx) hs
    unfold L2.isSignificantDigits at hs
    rw [← isSome_submatch, Option.isSome_iff_exists] at hs
    obtain ⟨m, hm⟩ := hs
    obtain ⟨h4, hc⟩ := sig_caps hm
    obtain ⟨d1, d2⟩ := lang_plusDigit.1 h4
    obtain ⟨ds, a1, hds⟩ := digits_exist d1
    have hne : ds ≠ [] := by rintro rfl; exact d2 (by simpa using hds)
    have fin : ∀ {t v}, SigYear t v → s = t ++ 'S' :: ds.map dig →
        ∃ t v ds, SigYear t v ∧ (∀ d ∈ ds, d < 10) ∧ ds ≠ [] ∧ s = t ++ 'S' :: ds.map dig ∧ plainLen v < value10 ds ∧ value10 ds < 10 ^ plainLen v := by
      intro t v hy es
      refine ⟨t, v, ds, hy, a1, hne, es, ?_⟩
      rw [es] at h
      exact (C15_sig_partial hy a1 hne).1 h
    rcases hc with ⟨hy, -, -, e⟩ | ⟨z1, h2, z3, e⟩ | ⟨z1, z2, hn, c, hc, e⟩
    · left
      obtain ⟨neg, n, hn, e'⟩ := lang_year4'.1 hy
      refine fin (.date neg n hn) ?_
      rw [e, e', hds, date0_year]
    · left
      obtain ⟨neg, us, u1, u2, e'⟩ := lang_signed_iff.1 h2
      obtain ⟨us, b1, rfl⟩ := digits_exist u1
      by_cases hl : (m 2).length ≤ 4
      · refine fin (.letter neg us b1 (by simpa using u2) ?_) ?_
        · rw [e'] at hl
          cases neg <;> simp [sgn] at hl ⊢ <;> omega
        · rw [e, e', hds, sgn_eq, List.cons_append]
      · exfalso
        rw [hp] at h
        unfold L2.parseSignificantDigits at h
        rw [hm] at h
        simp only at h
        unfold L2.sigYear at h
        rw [if_neg (by simp [z1]), if_pos (by intro h0; rw [h0] at hl; exact hl (by decide)), if_pos (by omega)] at h
        cases h
    · obtain ⟨neg, ms, es, ec, hec, m1, m2, e1, e2, e'⟩ := lang_notation.1 hn
      obtain ⟨ms, b1, rfl⟩ := digits_exist m1
      obtain ⟨es, b2, rfl⟩ := digits_exist e1
      have hm0 : ms ≠ [] := by simpa using m2
      have he0 : es ≠ [] := by simpa using e2
      by_cases hbig : 2 ^ 63 ≤ value10 ms * 10 ^ value10 es
      · right
        refine ⟨c, ec, neg, ms, es, 'S' :: ds.map dig, fold_Y.1 hc, hec, b1, b2, ?_, Or.inr ⟨ds, a1, rfl⟩, hbig⟩
        rw [e, e', hds, sgn_eq]
        simp
      · left
        have hval : ∀ v, parseExponentialNotation (m 3) = v → (∀ x, v ≠ .ok x) → v ≠ .panic → False := by
          intro v hv n1 n2
          have h' := h
          rw [hp] at h'
          unfold L2.parseSignificantDigits at h'
          rw [hm] at h'
          simp only at h'
          unfold L2.sigYear at h'
          rw [if_neg (by simp [z1]), if_neg (by simp [z2]), if_pos (by rw [e']; cases neg <;> simp [sgn]), hv] at h'
          cases v with
          | ok x => exact n1 x rfl
          | err _ => cases h'
          | panic => exact n2 rfl
        by_cases hb : value10 es < 2 ^ 63
        · have hv := exp_value' neg hec b1 b2 hm0 he0 hb (by omega)
          by_cases h9 : 9999 < value10 ms * 10 ^ value10 es
          · rw [if_pos h9, ← e'] at hv
            exact (hval _ hv (by intro x hx; cases hx) (by intro hx; cases hx)).elim
          · refine fin (.exp c ec (fold_Y.1 hc) hec neg ms es b1 hm0 b2 he0 hb (by omega)) ?_
            rw [e, e', hds, sgn_eq]
            simp
        · have hv := exponential_eq neg hec m1 m2 e1 e2
          rw [digitsVal_map _ b2, if_pos (by omega), ← e'] at hv
          exact (hval _ hv (by intro x hx; cases hx) (by intro hx; cases hx)).elim

example : SigYear (c! "1950") 1950 := .date false 1950 (by decide)

/-- C15 for exponential years, the part that holds: no crash while the number
of binary digits of the mantissa plus four times the exponent stays below
2^31 - 1.  (`C23_panic_partial` has strings that do crash, with more.) -/
theorem C15_exp_partial {yc ec : Char} (hyc : yc = 'Y' ∨ yc = 'y') (hec : ec = 'E' ∨ ec = 'e') (neg : Bool) {ms es : List Nat} (hm : ∀ d ∈ ms, d < 10)
    (hm0 : ms ≠ []) (he : ∀ d ∈ es, d < 10) (he0 : es ≠ []) {b : Nat} (hb : value10 ms < 2 ^ b) (h : b + 4 * value10 es < 2 ^ 31 - 1) :
    parseString (yc :: ((if neg then ['-'] else []) ++ ms.map dig ++ ec :: es.map dig)) ≠ .panic := by
  rw [List.append_assoc, ← sgn_eq]
  intro hp
  have := (exp_panic hyc hec (all_dig hm) (by simpa using hm0) (all_dig he) (by simpa using he0)).1 hp
  rw [digitsVal_map _ hm, digitsVal_map _ he] at this
  have hmax : BF.maxExp = 2 ^ 31 - 1 := rfl
  have hl := BF.bitLen_le.2 hb
  obtain ⟨q, x, e⟩ := ofExp_fin (m := value10 ms) (e := value10 es) (by omega)
  rw [e] at this
  cases this.2

example : parseString (c! "Y123456E100000000") ≠ .panic :=
  C15_exp_partial (Or.inl rfl) (Or.inl rfl) false (ms := [1, 2, 3, 4, 5, 6]) (es := [1, 0, 0, 0, 0, 0, 0, 0, 0]) (b := 17) (by decide) (by decide) (by decide) (by decide)
    (by decide) (by decide)

/-- C15 does not hold. -/
theorem C15_negation : parseString (c! "1950S5") = .panic ∧ parseString (c! "Y1E2000000000") = .panic :=
  ⟨(C15_sig_partial (.date false 1950 (by decide)) (ds := [5]) (by decide) (by decide)).2 (by decide),
    C23_panic_partial false (ms := [1]) (es := [2, 0, 0, 0, 0, 0, 0, 0, 0, 0]) (b := 0) (by decide) (by decide) (by decide) (by decide) (by decide) (by decide) (by decide) (by decide)⟩

end EDTF
