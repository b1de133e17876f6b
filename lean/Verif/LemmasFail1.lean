/-
The errors of Level 0 and Level 1.
-/
import Verif.LemmasFail
import Verif.PropsLang
import Verif.PropsForm
namespace EDTF
open Spec

theorem mk_err_iff {α β : Type} {r : Res α} {g : α → β} {e : Err} : (r >>= fun x => Res.ok (g x)) = .err e ↔ r = .err e := by
  rw [Res.bind_eq_err]
  constructor
  · rintro (h | ⟨_, -, h⟩)
    · exact h
    · cases h
  · exact .inl

theorem not_acc_of_err {s : Str} {e : Err} (h : parseString s = .err e) : ¬ Accepted s := by
  intro ha
  obtain ⟨d, hd⟩ := (C54_language s).2 ha
  rw [h] at hd
  cases hd

/-! ### Two halves -/

theorem half_err {t : Str} {e : Err} : halfSpan t = .err e ↔ t ≠ [] ∧ t ≠ c! ".." ∧ DateFails t e := by
  unfold halfSpan
  by_cases h1 : t = UNKNOWN
  · rw [if_pos h1]; rw [show t = [] from h1]; simp
  by_cases h2 : t = OPEN
  · rw [if_neg h1, if_pos h2]; rw [show t = c! ".." from h2]; simp
  · rw [if_neg h1, if_neg h2, date_err_iff]; exact ⟨fun h => ⟨h1, h2, h⟩, fun h => h.2.2⟩

theorem half_ok {t : Str} : (∃ sp, halfSpan t = .ok sp) ↔ t = [] ∨ t = c! ".." ∨ Reads t := by
  unfold halfSpan
  by_cases h1 : t = UNKNOWN
  · rw [if_pos h1]; rw [show t = [] from h1]; simp
  by_cases h2 : t = OPEN
  · rw [if_neg h1, if_pos h2]; rw [show t = c! ".." from h2]; simp
  · rw [if_neg h1, if_neg h2, reads_iff]; exact ⟨fun h => .inr (.inr h), fun h => h.elim (absurd · h1) fun h => h.elim (absurd · h2) id⟩

theorem join_noerr (a b : DateSpan) (e : Err) : joinHalves a b ≠ .err e := by
  intro h
  have d : ∀ (o : Option DateRange), Res.deref o ≠ .err e := by
    intro o h; cases o <;> cases h
  unfold joinHalves at h
  rcases Res.bind_eq_err.1 h with h | ⟨_, -, h⟩
  · exact d _ h
  rcases Res.bind_eq_err.1 h with h | ⟨_, -, h⟩
  · exact d _ h
  rcases Res.bind_eq_err.1 h with h | ⟨_, -, h⟩
  · exact d _ h
  rcases Res.bind_eq_err.1 h with h | ⟨_, -, h⟩
  · exact d _ h
  cases h

theorem two_err {t u : Str} (ht : '/' ∉ t) (hu : '/' ∉ u) {e : Err} :
    dateSpanFromEDTF (t ++ '/' :: u) = .err e ↔
      (t ≠ [] ∧ t ≠ c! ".." ∧ DateFails t e) ∨ ((t = [] ∨ t = c! ".." ∨ Reads t) ∧ u ≠ [] ∧ u ≠ c! ".." ∧ DateFails u e) := by
  rw [dateSpanFromEDTF_slash ht hu, Res.bind_eq_err, ← half_err, ← half_ok, ← half_err]
  constructor
  · rintro (h | ⟨a, ha, h⟩)
    · exact .inl h
    rcases Res.bind_eq_err.1 h with h | ⟨b, -, h⟩
    · exact .inr ⟨⟨a, ha⟩, h⟩
    · exact absurd h (join_noerr _ _ _)
  · rintro (h | ⟨⟨a, ha⟩, h⟩)
    · exact .inl h
    · exact .inr ⟨a, ha, Res.bind_eq_err.2 (.inl h)⟩

theorem shape_endpoint {a : Str} (h : DateShape a) : ∃ x : Endpoint, x.ok ∧ a = x.text := by
  obtain ⟨x, -, rfl⟩ := h
  exact ⟨dateE x, dateE_ok x, (dateE_text x).symm⟩

theorem form_endpoints {t u : Str} (h : PairForm (t ++ '/' :: u) ∨ IntervalForm (c! "X") (t ++ '/' :: u)) (ht : '/' ∉ t) :
    ∃ a b : Endpoint, a.ok ∧ b.ok ∧ t = a.text ∧ u = b.text := by
  have key : ∃ a b : Endpoint, a.ok ∧ b.ok ∧ t ++ '/' :: u = a.text ++ '/' :: b.text := by
    rcases h with ⟨a, b, ha, hb, e⟩ | ⟨a, b, ha, hb, e⟩
    · obtain ⟨x, hx, rfl⟩ := shape_endpoint ha
      obtain ⟨y, hy, rfl⟩ := shape_endpoint hb
      exact ⟨x, y, hx, hy, e⟩
    · obtain ⟨x, hx, rfl⟩ := elang_inv (lang_halfForm (g := 1).2 ha)
      obtain ⟨y, hy, rfl⟩ := elang_inv (lang_halfForm (g := 1).2 hb)
      exact ⟨x, y, hx, hy, e⟩
  obtain ⟨a, b, ha, hb, e⟩ := key
  obtain ⟨rfl, rfl⟩ := slash_split ht (e_not_mem ha.1 (c := '/') (by decide) (by decide) (by decide)) e
  exact ⟨a, b, ha, hb, rfl, rfl⟩

theorem endpoint_ne {a : Endpoint} (h : a.ok) : a.text ≠ [] ∧ a.text ≠ c! ".." := by
  refine ⟨e_nonempty h.1, fun e => ?_⟩
  exact e_not_mem h.1 (c := '.') (by decide) (by decide) (by decide) (by rw [e]; decide)

theorem two_form_err {t u : Str} (h : PairForm (t ++ '/' :: u) ∨ IntervalForm (c! "X") (t ++ '/' :: u)) (ht : '/' ∉ t) {e : Err} :
    parseString (t ++ '/' :: u) = .err e ↔ DateFails t e ∨ (Reads t ∧ DateFails u e) := by
  obtain ⟨a, b, ha, hb, rfl, rfl⟩ := form_endpoints h ht
  have sb := e_not_mem hb.1 (c := '/') (by decide) (by decide) (by decide)
  have na := endpoint_ne ha
  have nb := endpoint_ne hb
  rw [ivparse ha hb, mk_err_iff, two_err ht sb]
  constructor
  · rintro (⟨-, -, h⟩ | ⟨h1, -, -, h⟩)
    · exact .inl h
    · exact .inr ⟨(h1.resolve_left na.1).resolve_left na.2, h⟩
  · rintro (h | ⟨h1, h⟩)
    · exact .inl ⟨na.1, na.2, h⟩
    · exact .inr ⟨.inr (.inr h1), nb.1, nb.2, h⟩

theorem form_split {s : Str} (h : PairForm s ∨ IntervalForm (c! "X") s) : ∃ t u, s = t ++ '/' :: u ∧ '/' ∉ t := by
  rcases h with ⟨a, b, ha, hb, rfl⟩ | ⟨a, b, ha, hb, rfl⟩
  · obtain ⟨x, hx, rfl⟩ := shape_endpoint ha
    exact ⟨_, _, rfl, e_not_mem hx.1 (c := '/') (by decide) (by decide) (by decide)⟩
  · obtain ⟨x, hx, rfl⟩ := elang_inv (lang_halfForm (g := 1).2 ha)
    exact ⟨_, _, rfl, e_not_mem hx.1 (c := '/') (by decide) (by decide) (by decide)⟩

theorem fail_two {s : Str} (h : PairForm s ∨ IntervalForm (c! "X") s) {e : Err} (hp : parseString s = .err e) : Fails s e := by
  obtain ⟨t, u, rfl, ht⟩ := form_split h
  rcases (two_form_err h ht).1 hp with k | ⟨k1, k⟩
  · exact .left t u e h ht k
  · exact .right t u e (by rcases h with h | h; exact .inl h; exact .inr (.inl h)) ht (.inr (.inr k1)) k

/-! ### An open start -/

theorem shaped_iff {x : Date0} : x.shaped ↔ x.year < 10000 ∧ Date0.shapeOk x := by
  obtain ⟨neg, n, t⟩ := x
  cases t <;> simp [Date0.shaped, Date0.shapeOk]

theorem start_eval {l : Side} (hl : l = .opened ∨ l = .unknown) {x : Date0} (hx : x.shaped) :
    parseString (l.text ++ '/' :: x.text) =
      (dateSpanFromEDTF (l.text ++ '/' :: x.text) >>= fun sp => .ok (mkEDTF sp (l.text ++ '/' :: x.text) 1 L1.EXTENDED_INTERVAL_START)) := by
  have hd : Dots l.text := by rcases hl with rfl | rfl; exact .inr rfl; exact .inl rfl
  have hst : Lang (Rx.intervalStart 1) (l.text ++ '/' :: x.text) := lang_startForm.2 ⟨_, _, hd, ⟨x, hx, rfl⟩, rfl⟩
  have hm : Rx.IntervalStart.matchString (l.text ++ '/' :: x.text) = true := isIntervalStart_iff.2 hst
  have h1 : L1.isLevel1 (l.text ++ '/' :: x.text) = true := isLevel1_iff.2 (.inr (.inr (.inr (.inr (.inr (.inl hst))))))
  have h0 : L0.isLevel0 (l.text ++ '/' :: x.text) = false := by
    rcases hl with rfl | rfl
    · exact not_level0_of (c := '.') (by simp [Side.text]) (by decide) (by decide)
    · exact not_level0_side (by decide) (.inl rfl)
  have hse : L1.isSeason (l.text ++ '/' :: x.text) = false := by
    refine not_season_char (fun neg n rest e u hr => ?_) ?_
    · have hdi := isDig_dig (n / 1000)
      rcases hl with rfl | rfl <;> cases neg <;> injection e with e _ <;> first | exact absurd e (by decide) | (rw [← e] at hdi; exact absurd hdi (by decide))
    · intro hm
      rcases List.mem_append.1 hm with hm | hm
      · rcases hl with rfl | rfl <;> exact absurd hm (by decide)
      · rcases List.mem_cons.1 hm with hm | hm
        · exact absurd hm (by decide)
        · exact date0_not_mem x (by decide) (by decide) hm
  have e := parse_extended (l := l) (r := .date x) h0 h1 hse
  change parseString (l.text ++ '/' :: x.text) = _ at e
  rw [e]
  unfold L1.parseExtendedInterval L1.parseExtendedIntervalStart
  have hm' : Rx.IntervalStart.matchString (l.text ++ '/' :: (Side.date x).text) = true := hm
  rw [hm', if_pos rfl, if_neg (by simp)]
  rfl

theorem start_err {t u : Str} (h : StartForm (t ++ '/' :: u)) (ht : '/' ∉ t) {e : Err} :
    (t = [] ∨ t = c! "..") ∧ (parseString (t ++ '/' :: u) = .err e ↔ DateFails u e) := by
  obtain ⟨l, d, hl, ⟨x, hx, rfl⟩, ee⟩ := h
  have hl' : '/' ∉ l := by rcases hl with rfl | rfl <;> decide
  obtain ⟨rfl, rfl⟩ := slash_split ht hl' ee
  refine ⟨hl, ?_⟩
  obtain ⟨k, rfl, hk⟩ : ∃ k : Side, t = k.text ∧ (k = .opened ∨ k = .unknown) := by
    rcases hl with rfl | rfl
    · exact ⟨.unknown, rfl, Or.inr rfl⟩
    · exact ⟨.opened, rfl, Or.inl rfl⟩
  have hk2 : k.text = [] ∨ k.text = c! ".." := hl
  rw [start_eval hk hx, mk_err_iff, two_err hl' (date0_slash x)]
  constructor
  · rintro (⟨k1, k2, -⟩ | ⟨-, -, -, h⟩)
    · exact hk2.elim (absurd · k1) (absurd · k2)
    · exact h
  · intro h
    refine .inr ⟨?_, date0_ne_nil x, date0_ne_open x, h⟩
    rcases hk2 with h | h
    · exact .inl h
    · exact .inr (.inl h)

theorem fail_start {s : Str} (h : StartForm s) {e : Err} (hp : parseString s = .err e) : Fails s e := by
  obtain ⟨l, d, hl, hd, rfl⟩ := id h
  have hl' : '/' ∉ l := by rcases hl with rfl | rfl <;> decide
  obtain ⟨k1, k2⟩ := start_err (e := e) h hl'
  refine .right l d e (.inr (.inr h)) hl' ?_ (k2.1 hp)
  rcases k1 with h | h
  · exact .inl h
  · exact .inr (.inl h)

/-! ### Letters -/

theorem dig_all' {ds : List Nat} (h : Digits ds) : (ds.map dig).all isDig = true ∧ ds.map dig ≠ [] := digits_iff.2 ⟨ds, h, rfl⟩

theorem letter_long {neg : Bool} {us : List Nat} (hu : Digits us) (hl : 4 < us.length) :
    parseString ('Y' :: signed neg (us.map dig)) = .err (.unsupported (c! "Letter-prefixed calendar year") ('Y' :: signed neg (us.map dig))) := by
  have := parse_letter (neg := neg) (dig_all' hu).1 (dig_all' hu).2
  rw [if_pos (by simpa using hl)] at this
  exact this

theorem letter_short {neg : Bool} {us : List Nat} (hu : Digits us) (hl : us.length < 4) :
    parseString ('Y' :: signed neg (us.map dig)) = .err (.invalid (c! "date") (signed neg (us.map dig))) := by
  obtain ⟨h1, h2⟩ := dig_all' hu
  have := parse_letter (neg := neg) h1 h2
  rw [if_neg (by simp; omega), dateSpanFromEDTF_noSlash] at this
  · have k := (halfSpan_digits (t := []) neg h1 h2 (by simp; omega) (.inl rfl)).2
    rw [List.append_nil] at k
    rw [k] at this
    exact this
  · intro hm
    have : ∀ c ∈ sgn neg (us.map dig), c = '-' ∨ isDig c = true := by
      intro c hc
      cases neg with
      | false => exact .inr (List.all_eq_true.1 h1 c hc)
      | true =>
        rcases List.mem_cons.1 hc with hc | hc
        · exact .inl hc
        · exact .inr (List.all_eq_true.1 h1 c hc)
    rcases this _ hm with h | h
    · exact absurd h (by decide)
    · exact absurd h (by decide)

theorem fail_letter {s : Str} (h : LetterForm (c! "Y") s) {e : Err} (hp : parseString s = .err e) : Fails s e := by
  have na := not_acc_of_err hp
  obtain ⟨y, hy, neg, ds, hd, rfl⟩ := h
  rw [List.mem_singleton.1 hy] at *
  rcases Nat.lt_trichotomy ds.length 4 with k | k | k
  · rw [letter_short hd k] at hp
    injection hp with hp
    subst hp
    exact .letterShort neg ds hd k
  · obtain ⟨n, hn, hq⟩ := four_digits' (dig_all' hd).1 (by simpa using k)
    rw [hq] at na
    exact absurd (.letter neg n hn) na
  · rw [letter_long hd k] at hp
    injection hp with hp
    subst hp
    exact .letterLong neg ds hd k

/-! ### Seasons -/

theorem pad3_eq {n : Nat} (h1 : 1 ≤ n) (h2 : n ≤ 999) : padInt 4 (-(n : Int)) = '-' :: pad3 n := by
  have tbl : ∀ n : Fin 1000, 1 ≤ n.val → padInt 4 (-(n.val : Int)) = '-' :: pad3 n.val := by decide +kernel
  exact tbl ⟨n, by omega⟩ h1

theorem padInt4_noSlash {y : Int} (hy : y.natAbs < 10000) : '/' ∉ padInt 4 y := by
  intro hk
  unfold padInt at hk
  have go : ∀ w, '/' ∉ zeroPad w (natDigits y.natAbs) := by
    intro w hk
    revert hk
    unfold zeroPad
    intro hk
    rcases List.mem_append.1 hk with hk | hk
    · rw [List.mem_replicate] at hk; exact absurd hk.2 (by decide)
    · exact absurd (List.all_eq_true.1 (natDigits_all _) _ hk) (by decide)
  split at hk
  · rcases List.mem_cons.1 hk with hk | hk
    · exact absurd hk (by decide)
    · exact go _ hk
  · exact go _ hk

theorem seasonString_two {y1 y2 : Int} {m1 m2 d : Nat} (k1 : m1 < 100) (k2 : m2 < 100) (k3 : d < 100) :
    L1.seasonString ⟨y1, m1, y2, m2⟩ (d : Int) =
      (padInt 4 y1 ++ '-' :: (pad2 m1 ++ c! "-01")) ++ '/' :: (padInt 4 y2 ++ '-' :: (pad2 m2 ++ '-' :: pad2 d)) := by
  simp only [L1.seasonString]
  rw [padInt_two_chars k1, padInt_two_chars k2, padInt_two_chars k3, show padInt 2 1 = pad2 1 from padInt_two_chars (k := 1) (by omega)]
  simp [pad2, dig]

theorem ymd_noSlash {y : Int} (hy : y.natAbs < 10000) (a : Nat) {t : Str} (ht : '/' ∉ t) : '/' ∉ padInt 4 y ++ '-' :: (pad2 a ++ t) := by
  intro hc
  have nd : '/' ∉ pad2 a := fun hk => absurd (List.all_eq_true.1 (pad2_all a) _ hk) (by decide)
  rcases List.mem_append.1 hc with hc | hc
  · exact padInt4_noSlash hy hc
  · rcases List.mem_cons.1 hc with hc | hc
    · exact absurd hc (by decide)
    · rcases List.mem_append.1 hc with hc | hc
      · exact nd hc
      · exact ht hc

theorem short_season {n m m1 m2 : Nat} (h1 : 1 ≤ n) (h2 : n ≤ 999) (hm : SeasonNum m) {rest : Str} {y2 : Int}
    (k0 : L0.isLevel0 (yearStr true n ++ '-' :: (pad2 m ++ rest)) = false)
    (k1 : L1.isLevel1 (yearStr true n ++ '-' :: (pad2 m ++ rest)) = true)
    (hs : numSpan (-(n : Int)) m = ⟨-(n : Int), m1, y2, m2⟩) (hy : y2.natAbs < 10000) (b1 : m1 ≤ 12) (a2 : 1 ≤ m2) (b2 : m2 ≤ 12) :
    parseString (yearStr true n ++ '-' :: (pad2 m ++ rest)) = .err (.invalid (c! "date") ('-' :: (pad3 n ++ '-' :: (pad2 m1 ++ c! "-01")))) := by
  have hl := monthLen_pos y2 m2
  have hn : n < 10000 := by omega
  rw [parse_prefix hn hm k0 k1, (season_num hn hm rest).2]
  simp only [if_true]
  rw [hs]
  show (do
      let dm ← daysInMonth y2 m2
      let sp ← dateSpanFromEDTF (L1.seasonString ⟨-(n : Int), m1, y2, m2⟩ dm)
      Res.ok (mkEDTF sp (yearStr true n ++ '-' :: (pad2 m ++ rest)) 1 L1.SEASON)) = _
  rw [daysInMonth_ok hy a2 b2, Res.ok_bind, seasonString_two (by omega) (by omega) (by omega),
    dateSpanFromEDTF_slash (ymd_noSlash (by omega) _ (by decide))
      (ymd_noSlash hy _ (fun hk => by
        rcases List.mem_cons.1 hk with hk | hk
        · exact absurd hk (by decide)
        · exact absurd (List.all_eq_true.1 (pad2_all _) _ hk) (by decide))), pad3_eq h1 h2, List.cons_append,
    halfSpan_short (u := pad3 n) rfl (fun c r e => by injection e with e _; subst e; rfl)]
  rfl

theorem month_err {n m : Nat} (h1 : 1 ≤ n) (h2 : n ≤ 999) (h3 : 1 ≤ m) (h4 : m ≤ 12) {t : Str}
    (k0 : L0.isLevel0 (yearStr true n ++ '-' :: (pad2 m ++ t)) = false) (k1 : L1.isLevel1 (yearStr true n ++ '-' :: (pad2 m ++ t)) = true) :
    parseString (yearStr true n ++ '-' :: (pad2 m ++ t)) = .err (.invalid (c! "date") ('-' :: (pad3 n ++ '-' :: (pad2 m ++ c! "-01")))) :=
  short_season h1 h2 (.inl ⟨h3, h4⟩) k0 k1 (numSpan_month h3 h4) (by omega) h4 h3 h4

theorem season_err {n : Nat} (h1 : 1 ≤ n) (h2 : n ≤ 999) (z : Season) :
    parseString ('-' :: (pad4 n ++ '-' :: pad2 z.code)) =
      .err (.invalid (c! "date") ('-' :: (pad3 n ++ '-' :: (pad2 z.firstMonth ++ c! "-01")))) := by
  obtain ⟨c1, c2, c3⟩ := season_code z
  obtain ⟨a1, b1, a2, b2⟩ := season_months z
  have h0 : L0.isLevel0 (yearStr true n ++ '-' :: (pad2 z.code ++ [])) = false := by
    rw [List.append_nil]; exact number_not_level0 true n c2 c3
  have h1' : L1.isLevel1 (yearStr true n ++ '-' :: (pad2 z.code ++ [])) = true := by
    rw [List.append_nil]
    refine isLevel1_iff.2 (Or.inr (Or.inl ?_))
    exact lang_cat.2 ⟨_, _, rfl, lang_year4'.2 ⟨true, n, by omega, rfl⟩, lang_cat.2 ⟨['-'], _, rfl, lang_lit.2 rfl, lang_seasonCode.2 ⟨_, c2, c1, rfl⟩⟩⟩
  have := short_season h1 h2 c1 h0 h1' (numSpan_season _ z) (by
    have hly : z.lastYear (-(n : Int)) = -(n : Int) ∨ z.lastYear (-(n : Int)) = -(n : Int) + 1 := by cases z <;> simp [Season.lastYear]
    omega) b1 a2 b2
  rw [List.append_nil] at this
  exact this

theorem winter_err : parseString (c! "-1000-24") = .err (.invalid (c! "date") (c! "-999-02-28")) := by rfl
theorem lastWinter_err : parseString (c! "9999-24") = .err .plain := by rfl

theorem year_split (neg : Bool) (n : Nat) : SeasonYear (if neg then -(n : Int) else n) ∨ (neg = true ∧ 1 ≤ n ∧ n ≤ 999) := by
  unfold SeasonYear
  cases neg
  · left; simp
  · simp only [if_true, true_and]; omega

theorem fail_month {neg : Bool} {n m : Nat} (hn : n < 10000) (h1 : 1 ≤ m) (h2 : m ≤ 12) {t : Str} (ht : AfterMonth neg t) {e : Err}
    (hp : parseString (signed neg (pad4 n) ++ '-' :: (pad2 m ++ t)) = .err e) : Fails (signed neg (pad4 n) ++ '-' :: (pad2 m ++ t)) e := by
  rcases year_split neg n with k | ⟨rfl, k1, k2⟩
  · exact absurd (.month neg n m hn h1 h2 k t ht) (not_acc_of_err hp)
  · obtain ⟨l0, l1⟩ := month_levels hn h1 h2 ht
    have := month_err k1 k2 h1 h2 l0 l1
    rw [show parseString (signed true (pad4 n) ++ '-' :: (pad2 m ++ t)) = _ from this] at hp
    injection hp with hp
    subst hp
    exact .month n m k1 k2 h1 h2 t ht

theorem fail_season {s : Str} (h0 : L0.isLevel0 s = false) (h : SeasonForm s) {e : Err} (hp : parseString s = .err e) : Fails s e := by
  have na := not_acc_of_err hp
  obtain ⟨neg, n, m, hn, hm, rfl⟩ := h
  rcases hm with ⟨m1, m2⟩ | ⟨m1, m2⟩
  · have : L0.isLevel0 (yearStr neg n ++ '-' :: pad2 m) = true := month_level0 neg hn m1 m2
    rw [show L0.isLevel0 (signed neg (pad4 n) ++ '-' :: pad2 m) = true from this] at h0
    cases h0
  obtain ⟨z, rfl⟩ := season_of_code m1 m2
  rcases year_split neg n with k | ⟨rfl, k1, k2⟩
  · by_cases hz : z = .winter ∧ ((if neg then -(n : Int) else n) = 9999 ∨ (if neg then -(n : Int) else n) = -1000)
    · obtain ⟨rfl, hz⟩ := hz
      rcases hz with hz | hz
      · have : neg = false ∧ n = 9999 := by
          cases neg
          · simp only [Bool.false_eq_true, if_false] at hz; exact ⟨rfl, by omega⟩
          · simp only [if_true] at hz; omega
        obtain ⟨rfl, rfl⟩ := this
        rw [show parseString (signed false (pad4 9999) ++ '-' :: pad2 Season.winter.code) = _ from lastWinter_err] at hp
        injection hp with hp
        subst hp
        exact .lastWinter
      · have : neg = true ∧ n = 1000 := by
          cases neg
          · simp only [Bool.false_eq_true, if_false] at hz; omega
          · simp only [if_true] at hz; exact ⟨rfl, by omega⟩
        obtain ⟨rfl, rfl⟩ := this
        rw [show parseString (signed true (pad4 1000) ++ '-' :: pad2 Season.winter.code) = _ from winter_err] at hp
        injection hp with hp
        subst hp
        exact .winter
    · refine absurd (.season neg n hn z k fun h => ?_) na
      exact ⟨fun h' => hz ⟨h, .inl h'⟩, fun h' => hz ⟨h, .inr h'⟩⟩
  · rw [show parseString (signed true (pad4 n) ++ '-' :: pad2 z.code) = _ from season_err k1 k2 z] at hp
    injection hp with hp
    subst hp
    exact .season n k1 k2 z

theorem fail_seasonName {s : Str} (h : SeasonNameForm s) {e : Err} (hp : parseString s = .err e) : Fails s e := by
  have na := not_acc_of_err hp
  obtain ⟨w, t1, t2, z, n, hw, b1, b2, hn, rfl⟩ := h
  by_cases hz : z = .winter ∧ n = 9999
  · obtain ⟨rfl, rfl⟩ := hz
    rw [C18_text_last hw b1 b2] at hp
    injection hp with hp
    subst hp
    exact .lastWinterName w t1 t2 hw b1 b2
  · exact absurd (.seasonName z w t1 t2 n hw b1 b2 hn fun h h' => hz ⟨h, h'⟩) na

/-! ### Qualified dates and open ends -/

theorem fail_tail {x : Date0} (hx : x.shaped) {t : Str} (hyr : Accepted (signed x.neg (pad4 x.year) ++ t)) (hm : AfterMonth x.neg t)
    (hd : ∀ d, 1 ≤ d → d ≤ 31 → AfterMonth x.neg ('-' :: (pad2 d ++ t))) {e : Err} (hp : parseString (x.text ++ t) = .err e) : Fails (x.text ++ t) e := by
  obtain ⟨hy, hs⟩ := shaped_iff.1 hx
  obtain ⟨neg, n, tl⟩ := x
  cases tl with
  | none =>
    rw [date0_year] at hp
    exact absurd hyr (not_acc_of_err hp)
  | month m =>
    rw [month_text] at *
    exact fail_month hy hs.1 hs.2 hm hp
  | day m d =>
    obtain ⟨m1, m2, d1, d2⟩ := hs
    rw [day_text] at *
    exact fail_month hy m1 m2 (hd d d1 d2) hp

theorem fail_qualified {s : Str} (h : QualifiedForm s) {e : Err} (hp : parseString s = .err e) : Fails s e := by
  obtain ⟨d, ⟨x, hx, rfl⟩, q, hq, rfl⟩ := h
  exact fail_tail hx (.qualifiedYear _ _ (shaped_iff.1 hx).1 q hq) (.qualifier _ q hq) (fun d d1 d2 => .dayQualifier _ d d1 d2 q hq) hp

theorem fail_end {s : Str} (h : EndForm s) {e : Err} (hp : parseString s = .err e) : Fails s e := by
  obtain ⟨d, t, ⟨x, hx, rfl⟩, ht, rfl⟩ := h
  exact fail_tail hx (.endless _ _ (shaped_iff.1 hx).1 t ht) (.ended _ t ht) (fun d d1 d2 => .dayEnded _ d d1 d2 t ht) hp

/-! ### Two minus signs -/

theorem minus_err {n : Nat} (hn : n < 10000) :
    parseString ('-' :: '-' :: pad4 n) = .err (.invalid (c! "date") ('-' :: '-' :: pad4 n)) := by
  have h : Lang (Rx.negativeYear 1) ('-' :: '-' :: pad4 n) := lang_negativeForm.2 ⟨true, n, hn, rfl⟩
  have h1 : L1.isLevel1 ('-' :: '-' :: pad4 n) = true := isLevel1_iff.2 (.inr (.inr (.inr (.inr (.inr (.inr (.inr h)))))))
  have hst : ∀ x : Date0, ∀ t, x.text ++ t ≠ '-' :: '-' :: pad4 n := by
    intro x t e
    obtain ⟨neg, m, tl⟩ := x
    have hd := isDig_dig (m / 1000)
    rw [date0_text] at e
    cases neg with
    | false => injection e with e _; rw [e] at hd; exact absurd hd (by decide)
    | true => injection e with _ e; injection e with e _; rw [e] at hd; exact absurd hd (by decide)
  have h0 : L0.isLevel0 ('-' :: '-' :: pad4 n) = false := by
    rw [Bool.eq_false_iff]
    intro h
    rcases (C61_level0 _).1 h with ⟨x, -, e⟩ | ⟨d, hh, mi, ss, z, ⟨x, -, rfl⟩, -, -, -, -, e⟩ | ⟨a, b, ⟨x, -, rfl⟩, -, e⟩
    · exact hst x [] (by rw [List.append_nil]; exact e.symm)
    · exact hst x _ e.symm
    · exact hst x _ e.symm
  have nm : ∀ {c : Char}, isDig c = false → c ≠ '-' → c ∉ '-' :: '-' :: pad4 n := by
    intro c k1 k2 hm
    rcases List.mem_cons.1 hm with hm | hm
    · exact k2 hm
    · exact yearStr_not_mem true n k1 k2 hm
  have hse : L1.isSeason ('-' :: '-' :: pad4 n) = false := by
    refine not_season_char (fun neg n' rest e u hr => ?_) (nm (by decide) (by decide))
    have hd := isDig_dig (n' / 1000)
    cases neg with
    | false => injection e with e _; rw [← e] at hd; exact absurd hd (by decide)
    | true => injection e with _ e; injection e with e _; rw [← e] at hd; exact absurd hd (by decide)
  have hun : L1.isUnspecifiedDigits ('-' :: '-' :: pad4 n) = false := by
    rw [Bool.eq_false_iff]
    intro h
    obtain ⟨u, v, e, hu, -⟩ := lang_cat.1 (isUnspecifiedDigits_iff.1 h)
    obtain ⟨a, b, c, d, rfl, ha, -⟩ := (lang_rep4 (fun w => lang_digX (w := w))).1 (lang_grp.1 hu)
    injection e with e _
    subst e
    exact absurd ha (by decide)
  rw [parse_level1 h0 h1]
  unfold L1.parseString
  rw [not_letter (nm (by decide) (by decide)), hse, not_qualified (fun c hc => by
    rcases List.mem_cons.1 hc with rfl | hc
    · exact nm (by decide) (by decide)
    · rcases List.mem_cons.1 hc with rfl | hc
      · exact nm (by decide) (by decide)
      · rcases List.mem_cons.1 hc with rfl | hc
        · exact nm (by decide) (by decide)
        · cases hc), hun, isNegativeYear_iff.2 h]
  simp only [Bool.false_eq_true, if_false, if_true]
  unfold L1.parseNegativeCalendarYear
  rw [show Rx.NegativeYear.matchString _ = true from isNegativeYear_iff.2 h, if_neg (by simp), dateSpanFromEDTF_noSlash (nm (by decide) (by decide)), mk_err_iff,
    date_err_iff]
  refine .form _ ?_
  rintro ⟨x, hx, e⟩
  have hF := eformOf_ok hx
  rw [← eformOf_text] at e
  obtain ⟨q, neg, a, b, c, d, t', hq, qo, ha, -⟩ := form_year hF
  rw [hq] at e
  cases q with
  | left q =>
    injection e with h1 _
    subst h1
    exact absurd qo (by decide)
  | none =>
    cases neg with
    | false => injection e with h1 _; subst h1; exact absurd ha (by decide)
    | true => injection e with _ h1; injection h1 with h1 _; subst h1; exact absurd ha (by decide)
  | right q =>
    cases neg with
    | false => injection e with h1 _; subst h1; exact absurd ha (by decide)
    | true => injection e with _ h1; injection h1 with h1 _; subst h1; exact absurd ha (by decide)

theorem fail_negative {s : Str} (h0 : L0.isLevel0 s = false) (h : NegativeForm s) {e : Err} (hp : parseString s = .err e) : Fails s e := by
  obtain ⟨neg, n, hn, rfl⟩ := h
  cases neg with
  | false =>
    rw [isLevel0_iff, show L0.isDate ('-' :: signed false (pad4 n)) = true from isDate_iff.2 ⟨⟨true, n, .none⟩, hn, trivial, by simp [date0_text, yearStr, sgn, signed]⟩] at h0
    cases h0
  | true =>
    rw [show parseString ('-' :: signed true (pad4 n)) = _ from minus_err hn] at hp
    injection hp with hp
    subst hp
    exact .minus n hn

/-! ### Unspecified digits -/

/-- The outcome for the pattern of unspecified digits, if it is not accepted. -/
theorem unspec_eval {s : Str} (h0 : L0.isLevel0 s = false) (h : UnspecifiedForm (c! "Xx") s) (na : ¬ Accepted s) :
    (UnspecifiedForm (c! "X") s ∧ parseString s = (dateSpanFromYMD s >>= fun sp => .ok (mkEDTF sp s 1 L1.UNSPECIFIED_DIGITS))) ∨
    (¬ UnspecifiedForm (c! "X") s ∧ parseString s = .err (.invalid (c! "Extended Interval") s)) := by
  have h := lang_unspecifiedForm' (g := 1).2 h
  have h1 : L1.isLevel1 s = true := isLevel1_iff.2 (.inr (.inr (.inr (.inr (.inl h)))))
  have nm : ∀ {c : Char}, (Rx.unspecifiedDigits 1).ci.mayHave c = false → c ∉ s := by
    intro c hc hm
    rw [lang_mayHave _ _ h c hm] at hc
    cases hc
  rw [← C59_unspecified]
  obtain ⟨a, b, c, d, t, rfl, -, nb, nc, nd, ht⟩ := lang_unspec h
  obtain ⟨_, _, _, _, _, ee, na', -⟩ := lang_unspec h
  injection ee with ee _
  subst ee
  have ny : ∀ {neg : Bool} {n : Nat} {w : Str}, a :: b :: c :: d :: t = yearStr neg n ++ w → neg = false ∧ [a, b, c, d] = pad4 n ∧ t = w := by
    intro neg n w e
    cases neg with
    | true => injection e with e _; exact absurd e na'
    | false =>
      refine ⟨rfl, ?_⟩
      exact List.append_inj (show [a, b, c, d] ++ t = pad4 n ++ w from e) (by rw [pad4_length]; rfl)
  have hse : L1.isSeason (a :: b :: c :: d :: t) = false := by
    rw [Bool.eq_false_iff]
    intro hse
    rcases (C49_exact_partial _).1 hse with ⟨neg, n, m, rest, hn, hm, e⟩ | ⟨pre, w, t1, t2, z, n, -, -, -, -, e⟩
    · obtain ⟨rfl, e1, e2⟩ := ny (neg := neg) (n := n) e
      rcases ht with ht | ⟨w, ht, mm, v, hw, hl, hm2, hv⟩
      · rw [ht] at e2; cases e2
      · rw [ht] at e2
        injection e2 with _ e2
        rw [hw] at e2
        obtain ⟨e3, e4⟩ := List.append_inj e2 (by rw [hl, pad2_length])
        subst e3 e4
        have hm12 : m ≤ 12 := loose_month m (by omega) (by omega) (by rw [matchString_anch _ (by decide)]; exact hm2)
        have hm1 : 1 ≤ m := by omega
        change a :: b :: c :: d :: t = yearStr false n ++ '-' :: (pad2 m ++ v) at e
        rw [e] at h0 na
        rcases hv with rfl | ⟨z, rfl, hz⟩
        · rw [List.append_nil, month_level0 false hn hm1 hm12] at h0
          cases h0
        · obtain ⟨k1, k2, rfl, hk⟩ := lang_loose hz
          rcases hk with hk | ⟨dd, d2, d1, ek⟩
          · exact na (.month false n m hn hm1 hm12 (by left; simp) _ (.loose k1 k2 hk))
          · rw [ek, isLevel0_iff, show L0.isDate (yearStr false n ++ '-' :: (pad2 m ++ '-' :: pad2 dd)) = true from
              isDate_iff.2 ⟨⟨false, n, .day m dd⟩, hn, ⟨hm1, hm12, d1, Nat.le_of_lt_succ d2⟩, by simp [date0_text]⟩] at h0
            cases h0
    · exact absurd (by rw [e]; simp) (nm (c := ',') (by decide))
  rw [parse_level1 h0 h1]
  unfold L1.parseString
  have hq : ∀ q ∈ (c! "?~%"), q ∉ a :: b :: c :: d :: t := by
    intro q hq
    have tb : ∀ q ∈ (c! "?~%"), (Rx.unspecifiedDigits 1).ci.mayHave q = false := by decide
    exact nm (tb q hq)
  rw [not_letter (nm (by decide)), hse, not_qualified hq]
  simp only [Bool.false_eq_true, if_false]
  cases hu : L1.isUnspecifiedDigits (a :: b :: c :: d :: t) with
  | true =>
    left
    rw [if_pos rfl]
    refine ⟨rfl, ?_⟩
    unfold L1.parseUnspecifiedDigits
    rw [show Rx.UnspecifiedDigits.matchString _ = true from hu, if_neg (by simp), dateSpanFromEDTF_noSlash (nm (by decide))]
  | false =>
    right
    refine ⟨by simp, ?_⟩
    have hng : L1.isNegativeCalendarYear (a :: b :: c :: d :: t) = false := by
      rw [Bool.eq_false_iff]
      intro h
      obtain ⟨l, u, e, hl, -⟩ := lang_cat.1 (isNegativeYear_iff.1 h)
      rw [lang_lit] at hl
      subst hl
      injection e with e _
      exact na' e
    have hst : Rx.IntervalStart.matchString (a :: b :: c :: d :: t) = false := by
      rw [Bool.eq_false_iff]
      intro h
      obtain ⟨l, u, -, -, e⟩ := lang_startForm.1 (isIntervalStart_iff.1 h)
      exact absurd (by rw [e]; simp) (nm (c := '/') (by decide))
    have hen : Rx.IntervalEnd.matchString (a :: b :: c :: d :: t) = false := by
      rw [Bool.eq_false_iff]
      intro h
      obtain ⟨l, u, -, -, e⟩ := lang_endForm.1 (isIntervalEnd_iff.1 h)
      exact absurd (by rw [e]; simp) (nm (c := '/') (by decide))
    rw [hng, isExtendedInterval_true]
    simp only [Bool.false_eq_true, if_false, if_true]
    unfold L1.parseExtendedInterval
    rw [hst, hen]
    rfl

/-- A year and a number above 12 is not of the form of a date. -/
theorem unspec_num {neg : Bool} {n m : Nat} (h1 : 13 ≤ m) (h2 : m < 100) : ¬ UnspecifiedForm (c! "X") (signed neg (pad4 n) ++ '-' :: pad2 m) := by
  rintro ⟨y, t, ⟨hl, hy⟩, e, ht⟩
  have hneg : neg = false := by
    cases neg with
    | false => rfl
    | true =>
      obtain ⟨c, y, rfl⟩ := List.exists_cons_of_ne_nil (l := y) (by rintro rfl; cases hl)
      injection e with e _
      exact absurd (hy c (by simp)) (by rw [← e]; decide)
  subst hneg
  obtain ⟨rfl, rfl⟩ := List.append_inj (show pad4 n ++ '-' :: pad2 m = y ++ t from e) (by rw [pad4_length, hl])
  rcases ht with ht | ⟨mm, u, hm, e, -⟩
  · cases ht
  · injection e with _ e
    have hm2 : mm.length = 2 := by obtain ⟨a, b, rfl, -⟩ := hm; rfl
    obtain ⟨rfl, -⟩ := List.append_inj (show pad2 m ++ [] = mm ++ u by rw [List.append_nil]; exact e) (by rw [pad2_length, hm2])
    have tb : ∀ m, m < 100 → 13 ≤ m → (Rx.anch Rx.monthX).matchString (pad2 m) = false := by decide +kernel
    have := tb m h2 h1
    rw [matchString_anch_false _ (by decide)] at this
    exact this (lang_monthShape.2 hm)

theorem season_or_number {s : Str} (h : SeasonForm s ∨ SubYearForm s) (na : ¬ Accepted s) :
    ∃ neg n m, 13 ≤ m ∧ m < 100 ∧ s = signed neg (pad4 n) ++ '-' :: pad2 m := by
  have acc : ∀ {neg : Bool} {n m : Nat}, n < 10000 → 1 ≤ m → m ≤ 12 → Accepted (signed neg (pad4 n) ++ '-' :: pad2 m) := by
    intro neg n m hn h1 h2
    have := Accepted.date ⟨neg, n, .month m⟩ ⟨hn, h1, h2⟩
    rw [date0_text] at this
    have e : yearStr neg n ++ '-' :: pad2 m = signed neg (pad4 n) ++ '-' :: pad2 m := rfl
    rw [← e]
    simpa using this
  rcases h with ⟨neg, n, m, hn, hm, rfl⟩ | ⟨n, m, hn, hm, rfl⟩
  · rcases hm with ⟨h1, h2⟩ | ⟨h1, h2⟩
    · exact absurd (acc hn h1 h2) na
    · exact ⟨neg, n, m, by omega, by omega, rfl⟩
  · rcases hm with ⟨h1, h2⟩ | ⟨h1, h2⟩
    · exact absurd (acc (neg := false) hn (by omega) h2) na
    · exact ⟨false, n, m, by omega, by omega, rfl⟩

theorem shape_num {neg : Bool} {n m : Nat} (h1 : 13 ≤ m) (h2 : m < 100) : ¬ DateShape (signed neg (pad4 n) ++ '-' :: pad2 m) := by
  intro h
  have : L0.isLevel0 (yearStr neg n ++ '-' :: pad2 m) = false := number_not_level0 neg n h2 (by omega)
  rw [isLevel0_iff, show L0.isDate (yearStr neg n ++ '-' :: pad2 m) = true from (C58_date _).2 h] at this
  cases this

theorem date_eval {s : Str} (h : DateShape s) : parseString s = (dateSpanFromYMD s >>= fun sp => .ok (mkEDTF sp s 0 L0.DATE)) := by
  have h := (C58_date s).2 h
  rw [parseString_isDate h, parseDate_eq h]

theorem fail_date {s : Str} (h : DateShape s) {e : Err} (hp : parseString s = .err e) : Fails s e := by
  have na := not_acc_of_err hp
  rw [date_eval h, mk_err_iff, date_err_iff] at hp
  refine .single s e (.inl h) (fun k => ?_) (fun k => ?_) na hp
  · obtain ⟨neg, n, m, h1, h2, rfl⟩ := season_or_number (.inl k) na
    exact shape_num h1 h2 h
  · obtain ⟨neg, n, m, h1, h2, rfl⟩ := season_or_number (.inr k) na
    exact shape_num h1 h2 h

theorem fail_unspecified {s : Str} (h0 : L0.isLevel0 s = false) (h : UnspecifiedForm (c! "Xx") s) {e : Err} (hp : parseString s = .err e) : Fails s e := by
  have na := not_acc_of_err hp
  rcases unspec_eval h0 h na with ⟨k, ev⟩ | ⟨k, ev⟩
  · rw [ev, mk_err_iff, date_err_iff] at hp
    refine .single s e (.inr (.inl k)) (fun j => ?_) (fun j => ?_) na hp
    · obtain ⟨neg, n, m, h1, h2, rfl⟩ := season_or_number (.inl j) na
      exact unspec_num h1 h2 k
    · obtain ⟨neg, n, m, h1, h2, rfl⟩ := season_or_number (.inr j) na
      exact unspec_num h1 h2 k
  · rw [ev] at hp
    injection hp with hp
    subst hp
    exact .small s h k na

theorem fail_level0 {s : Str} (h : L0.isLevel0 s = true) {e : Err} (hp : parseString s = .err e) : Fails s e := by
  rcases (C61_level0 s).1 h with k | k | k
  · exact fail_date k hp
  · have := (C13_level0_partial h).2 e hp
    subst this
    exact .time s k (not_acc_of_err hp)
  · exact fail_two (.inl k) hp

theorem fail_level1 {s : Str} (h0 : L0.isLevel0 s = false) (h : L1.isLevel1 s = true) {e : Err} (hp : parseString s = .err e) : Fails s e := by
  rcases (C61_level1_partial s).1 h with k | k | k | k | k | k | k | k
  · exact fail_letter k hp
  · exact fail_season h0 k hp
  · exact fail_seasonName k hp
  · exact fail_qualified k hp
  · exact fail_unspecified h0 k hp
  · exact fail_start k hp
  · exact fail_end k hp
  · exact fail_negative h0 k hp

theorem time_err {s : Str} (h : TimeForm s) (na : ¬ Accepted s) : parseString s = .err .plain := by
  have h0 := (C61_level0 s).2 (.inr (.inl h))
  cases hp : parseString s with
  | ok d => exact absurd ((C54_language s).1 ⟨d, hp⟩) na
  | err e => rw [(C13_level0_partial h0).2 e hp]
  | panic => rw [(parse_panic hp).1] at h0; cases h0

end EDTF
