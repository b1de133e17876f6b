/- The languages of the patterns as written forms. -/
import Verif.SpecForm
import Verif.LemmasAcc4
import Verif.LemmasAcc1
import Verif.LemmasAcc2
namespace EDTF
open Spec

/-- The class holds exactly the characters of the list: a table for ASCII and the two
other characters that fold to ASCII letters. -/
def clsTable (f : Bool) (rs : List (Char × Char)) (L : Str) : Bool :=
  (List.range 128).all (fun n => clsHas f rs (Char.ofNat n) == L.contains (Char.ofNat n)) &&
  clsHas f rs '\u017f' == L.contains '\u017f' && clsHas f rs '\u212a' == L.contains '\u212a' &&
  L.all (fun c => Nat.blt c.toNat 128 || c == '\u017f' || c == '\u212a')

theorem cls_mem {f : Bool} {rs : List (Char × Char)} {L : Str} (hr : rs.all asciiR = true) (ht : clsTable f rs L = true) (c : Char) :
    clsHas f rs c = true ↔ c ∈ L := by
  unfold clsTable at ht
  simp only [Bool.and_eq_true, beq_iff_eq, List.all_eq_true, List.mem_range, Bool.or_eq_true, Nat.blt_eq] at ht
  obtain ⟨⟨⟨h1, h2⟩, h3⟩, h4⟩ := ht
  rw [← List.contains_iff_mem]
  by_cases hc : c.toNat < 128
  · have := h1 c.toNat hc
    rw [Char.ofNat_toNat] at this
    rw [this]
  · by_cases k1 : c = '\u017f'
    · subst k1; rw [h2]
    · by_cases k2 : c = '\u212a'
      · subst k2; rw [h3]
      · have no : ∀ d : Char, d = c → rs.any (inR d) = false := by
          rintro d rfl
          rw [List.any_eq_false]
          intro p hp
          have := List.all_eq_true.1 hr p hp
          simp only [asciiR, Nat.ble_eq] at this
          simp only [inR, Bool.and_eq_true, Nat.ble_eq]
          omega
        have o : orbit c = [c] := by
          unfold orbit
          rw [if_neg (by simp; omega), if_neg (by simp; omega), if_neg k1, if_neg k2]
        have e : clsHas f rs c = false := by
          unfold clsHas
          cases f
          · rw [if_neg (by decide)]; exact no c rfl
          · rw [if_pos rfl, o]; simp [no c rfl]
        rw [e]
        constructor
        · intro h; cases h
        · intro h
          rcases h4 c (by simpa using h) with (k | k) | k
          · omega
          · exact absurd k k1
          · exact absurd k k2

theorem cls_lang {f : Bool} {rs : List (Char × Char)} (L : Str) (hr : rs.all asciiR = true) (ht : clsTable f rs L = true) (w : Str) :
    Lang (.cls f rs) w ↔ ∃ c, w = [c] ∧ c ∈ L := by
  rw [lang_cls]
  simp only [cls_mem hr ht]

theorem lang_places4 {r : Re} {xs : Str} (h : ∀ w, Lang r w ↔ ∃ c, w = [c] ∧ c ∈ c! "0123456789" ++ xs) {w : Str} :
    Lang (Re.rep r 4) w ↔ Places 4 xs w := by
  rw [lang_rep4 h]
  constructor
  · rintro ⟨a, b, c, d, rfl, ha, hb, hc, hd⟩
    refine ⟨rfl, fun x hx => ?_⟩
    simp only [List.mem_cons, List.not_mem_nil, or_false] at hx
    rcases hx with rfl | rfl | rfl | rfl <;> assumption
  · rintro ⟨hl, hc⟩
    match w, hl with
    | [a, b, c, d], _ => exact ⟨a, b, c, d, rfl, hc a (by simp), hc b (by simp), hc c (by simp), hc d (by simp)⟩

theorem lang_places2 {r : Re} {xs : Str} (h : ∀ w, Lang r w ↔ ∃ c, w = [c] ∧ c ∈ c! "0123456789" ++ xs) {w : Str} :
    Lang (Re.rep r 2) w ↔ Places 2 xs w := by
  rw [lang_rep2 h]
  constructor
  · rintro ⟨a, b, rfl, ha, hb⟩
    refine ⟨rfl, fun x hx => ?_⟩
    simp only [List.mem_cons, List.not_mem_nil, or_false] at hx
    rcases hx with rfl | rfl <;> assumption
  · rintro ⟨hl, hc⟩
    match w, hl with
    | [a, b], _ => exact ⟨a, b, rfl, hc a (by simp), hc b (by simp)⟩

theorem lang_place (w : Str) : Lang Rx.digit w ↔ ∃ c, w = [c] ∧ c ∈ c! "0123456789" ++ [] := cls_lang _ (by decide) (by decide +kernel) w
theorem lang_placeX (w : Str) : Lang Rx.digX w ↔ ∃ c, w = [c] ∧ c ∈ c! "0123456789" ++ c! "X" := cls_lang _ (by decide) (by decide +kernel) w
theorem lang_placeXx (w : Str) : Lang Rx.digX.ci w ↔ ∃ c, w = [c] ∧ c ∈ c! "0123456789" ++ c! "Xx" := cls_lang _ (by decide) (by decide +kernel) w

theorem lang_mark {g : Nat} {w : Str} : Lang (Rx.qOpt g) w ↔ Mark w := by
  unfold Rx.qOpt Rx.qualAlt Mark
  simp only [lang_opt, lang_grp, lang_alt, lang_lit]
  constructor
  · rintro (h | rfl | rfl | rfl)
    · exact Or.inl h
    · exact Or.inr ⟨'%', by decide, rfl⟩
    · exact Or.inr ⟨'~', by decide, rfl⟩
    · exact Or.inr ⟨'?', by decide, rfl⟩
  · rintro (h | ⟨q, hq, rfl⟩)
    · exact Or.inl h
    · right
      revert q
      decide

theorem lang_optDots' {w : Str} : Lang (.opt Rx.dots) w ↔ Dots w := by
  rw [lang_opt, lang_dots]; rfl

theorem lang_dateForm {g : Nat} {w : Str} : Lang (Rx.date g) w ↔ DateShape w := by
  rw [lang_date]
  constructor
  · rintro ⟨x, h1, h2, rfl⟩; exact ⟨x, ⟨h1, h2⟩, rfl⟩
  · rintro ⟨x, ⟨h1, h2⟩, rfl⟩; exact ⟨x, h1, h2, rfl⟩

theorem lang_consLit {c : Char} {r : Re} {w : Str} : Lang (Rx.lit c ⬝ r) w ↔ ∃ v, w = c :: v ∧ Lang r v := by
  rw [lang_cat]
  constructor
  · rintro ⟨u, v, rfl, hu, hv⟩
    rw [lang_lit] at hu
    subst hu
    exact ⟨v, rfl, hv⟩
  · rintro ⟨v, rfl, hv⟩
    exact ⟨[c], v, rfl, lang_lit.2 rfl, hv⟩

theorem lang_pair {g : Nat} {w : Str} : Lang (Rx.timeInterval g) w ↔ PairForm w := by
  unfold Rx.timeInterval PairForm
  rw [lang_cat]
  simp only [lang_consLit, lang_dateForm]
  constructor
  · rintro ⟨u, v, rfl, hu, b, rfl, hb⟩; exact ⟨u, b, hu, hb, rfl⟩
  · rintro ⟨a, b, ha, hb, rfl⟩; exact ⟨a, _, rfl, ha, b, rfl, hb⟩

theorem lang_two' {g : Nat} {w : Str} : Lang (Rx.two g) w ↔ ∃ n, n < 100 ∧ w = pad2 n := lang_digits2'

theorem lang_zoneForm {a b c d e : Nat} {w : Str} : Lang (.opt (.grp a (Rx.lit 'Z' ∥
    (.grp b (Rx.lit '+' ∥ Rx.lit '-') ⬝ Rx.two c ⬝ .opt (.grp d (Rx.lit ':' ⬝ Rx.two e)))))) w ↔ ZoneForm w := by
  simp only [lang_opt, lang_grp, lang_alt, lang_cat (a := .grp b _), lang_cat (a := Rx.two c), lang_consLit, lang_lit, lang_two']
  constructor
  · rintro (rfl | rfl | ⟨u, v, rfl, hu, x, y, rfl, ⟨n, hn, rfl⟩, hy⟩)
    · exact .none
    · exact .utc
    · have : ∃ s ∈ c! "+-", u = [s] := by
        rcases hu with rfl | rfl
        · exact ⟨_, by decide, rfl⟩
        · exact ⟨_, by decide, rfl⟩
      obtain ⟨s, hs, rfl⟩ := this
      rcases hy with rfl | ⟨v, rfl, m, hm, rfl⟩
      · rw [List.append_nil]
        exact .hours s hs n hn
      · exact .minutes s hs n m hn hm
  · have hs : ∀ s ∈ c! "+-", [s] = ['+'] ∨ [s] = ['-'] := by decide
    rintro (_ | _ | ⟨s, h, n, hn⟩ | ⟨s, h, n, m, hn, hm⟩)
    · exact Or.inl rfl
    · exact Or.inr (Or.inl rfl)
    · exact Or.inr (Or.inr ⟨[s], pad2 n, rfl, hs s h, pad2 n, [], (List.append_nil _).symm, ⟨n, hn, rfl⟩, Or.inl rfl⟩)
    · exact Or.inr (Or.inr ⟨[s], _, rfl, hs s h, pad2 n, _, rfl, ⟨n, hn, rfl⟩, Or.inr ⟨_, rfl, m, hm, rfl⟩⟩)

theorem lang_timeForm {g : Nat} {w : Str} : Lang (Rx.dateAndTime g) w ↔ TimeForm w := by
  unfold Rx.dateAndTime Rx.timePart TimeForm
  rw [lang_cat]
  simp only [lang_consLit, lang_dateForm, lang_cat (a := Rx.two _), lang_two', lang_zoneForm]
  constructor
  · rintro ⟨d, v, rfl, hd, _, rfl, _, _, rfl, ⟨h, hh, rfl⟩, _, rfl, _, _, rfl, ⟨m, hm, rfl⟩, _, rfl, _, z, rfl, ⟨t, ht, rfl⟩, hz⟩
    exact ⟨d, h, m, t, z, hd, hh, hm, ht, hz, rfl⟩
  · rintro ⟨d, h, m, t, z, hd, hh, hm, ht, hz, rfl⟩
    exact ⟨d, _, rfl, hd, _, rfl, _, _, rfl, ⟨h, hh, rfl⟩, _, rfl, _, _, rfl, ⟨m, hm, rfl⟩, _, rfl, _, z, rfl, ⟨t, ht, rfl⟩, hz⟩

/-! ### Level 1 -/

theorem digits_iff {w : Str} : (w.all isDig = true ∧ w ≠ []) ↔ ∃ ds, Digits ds ∧ w = ds.map dig := by
  constructor
  · rintro ⟨h, h0⟩
    obtain ⟨ds, hd, rfl⟩ := digits_exist h
    exact ⟨ds, ⟨by simpa using h0, hd⟩, rfl⟩
  · rintro ⟨ds, ⟨h0, hd⟩, rfl⟩
    exact ⟨all_dig hd, by simpa using h0⟩

theorem lang_signedForm {w : Str} : Lang (.opt (Rx.lit '-') ⬝ .plus Rx.digit) w ↔ ∃ neg ds, Digits ds ∧ w = signed neg (ds.map dig) := by
  rw [lang_signed_iff]
  constructor
  · rintro ⟨neg, us, h1, h2, rfl⟩
    obtain ⟨ds, hd, rfl⟩ := digits_iff.1 ⟨h1, h2⟩
    exact ⟨neg, ds, hd, rfl⟩
  · rintro ⟨neg, ds, hd, rfl⟩
    obtain ⟨h1, h2⟩ := digits_iff.2 ⟨ds, hd, rfl⟩
    exact ⟨neg, _, h1, h2, rfl⟩

theorem lang_letterForm {g : Nat} {w : Str} : Lang (Rx.letterPrefixed g) w ↔ LetterForm (c! "Y") w := by
  unfold Rx.letterPrefixed LetterForm
  simp only [lang_consLit, lang_grp, lang_signedForm]
  constructor
  · rintro ⟨_, rfl, neg, ds, hd, rfl⟩; exact ⟨'Y', by simp, neg, ds, hd, rfl⟩
  · rintro ⟨y, hy, neg, ds, hd, rfl⟩
    rw [List.mem_singleton.1 hy]
    exact ⟨_, rfl, neg, ds, hd, rfl⟩

theorem lang_year_signed {w : Str} : Lang Rx.year4 w ↔ ∃ neg n, n < 10000 ∧ w = signed neg (pad4 n) := lang_year4'

theorem lang_seasonForm {g : Nat} {w : Str} : Lang (Rx.seasonNum g) w ↔ SeasonForm w := by
  unfold Rx.seasonNum SeasonForm
  rw [lang_cat]
  simp only [lang_grp, lang_year_signed, lang_consLit]
  constructor
  · rintro ⟨_, _, rfl, ⟨neg, n, hn, rfl⟩, v, rfl, hv⟩
    obtain ⟨m, -, hm, rfl⟩ := lang_seasonCode.1 hv
    exact ⟨neg, n, m, hn, hm, rfl⟩
  · rintro ⟨neg, n, m, hn, hm, rfl⟩
    exact ⟨_, _, rfl, ⟨neg, n, hn, rfl⟩, _, rfl, lang_seasonCode.2 ⟨m, by omega, hm, rfl⟩⟩

theorem lang_qualifiedForm {g : Nat} {w : Str} : Lang (Rx.qualifiedDate g) w ↔ QualifiedForm w := by
  unfold Rx.qualifiedDate QualifiedForm
  rw [lang_cat]
  simp only [lang_dateForm, lang_qualAlt]
  constructor
  · rintro ⟨d, _, rfl, hd, q, hq, rfl⟩; exact ⟨d, hd, q, hq, rfl⟩
  · rintro ⟨d, hd, q, hq, rfl⟩; exact ⟨d, _, rfl, hd, q, hq, rfl⟩

theorem lang_startForm {g : Nat} {w : Str} : Lang (Rx.intervalStart g) w ↔ StartForm w := by
  unfold Rx.intervalStart StartForm
  rw [lang_cat]
  simp only [lang_optDots, lang_consLit, lang_dateForm]
  constructor
  · rintro ⟨l, _, rfl, hl, d, rfl, hd⟩; exact ⟨l, d, hl, hd, rfl⟩
  · rintro ⟨l, d, hl, hd, rfl⟩; exact ⟨l, _, rfl, hl, d, rfl, hd⟩

theorem lang_endForm {g : Nat} {w : Str} : Lang (Rx.intervalEnd g) w ↔ EndForm w := by
  unfold Rx.intervalEnd EndForm
  rw [lang_cat]
  simp only [lang_optDots, lang_consLit, lang_dateForm]
  constructor
  · rintro ⟨d, _, rfl, hd, r, rfl, hr⟩; exact ⟨d, r, hd, hr, rfl⟩
  · rintro ⟨d, r, hd, hr, rfl⟩; exact ⟨d, _, rfl, hd, r, rfl, hr⟩

theorem lang_negativeForm {g : Nat} {w : Str} : Lang (Rx.negativeYear g) w ↔ NegativeForm w := by
  unfold Rx.negativeYear NegativeForm
  simp only [lang_consLit, lang_grp, lang_year_signed]
  constructor
  · rintro ⟨_, rfl, neg, n, hn, rfl⟩; exact ⟨neg, n, hn, rfl⟩
  · rintro ⟨neg, n, hn, rfl⟩; exact ⟨_, rfl, neg, n, hn, rfl⟩

/-- Two classes, twice. -/
theorem lang_shape {a b c d : Re} {A B C D : Str} (ha : ∀ w, Lang a w ↔ ∃ c, w = [c] ∧ c ∈ A) (hb : ∀ w, Lang b w ↔ ∃ c, w = [c] ∧ c ∈ B)
    (hc : ∀ w, Lang c w ↔ ∃ c, w = [c] ∧ c ∈ C) (hd : ∀ w, Lang d w ↔ ∃ c, w = [c] ∧ c ∈ D) {w : Str} :
    Lang ((a ⬝ b) ∥ (c ⬝ d)) w ↔ ∃ x y, w = [x, y] ∧ ((x ∈ A ∧ y ∈ B) ∨ (x ∈ C ∧ y ∈ D)) := by
  simp only [lang_alt, lang_cat, ha, hb, hc, hd]
  constructor
  · rintro (⟨_, _, rfl, ⟨x, rfl, hx⟩, y, rfl, hy⟩ | ⟨_, _, rfl, ⟨x, rfl, hx⟩, y, rfl, hy⟩)
    · exact ⟨x, y, rfl, Or.inl ⟨hx, hy⟩⟩
    · exact ⟨x, y, rfl, Or.inr ⟨hx, hy⟩⟩
  · rintro ⟨x, y, rfl, ⟨hx, hy⟩ | ⟨hx, hy⟩⟩
    · exact Or.inl ⟨[x], [y], rfl, ⟨x, rfl, hx⟩, y, rfl, hy⟩
    · exact Or.inr ⟨[x], [y], rfl, ⟨x, rfl, hx⟩, y, rfl, hy⟩

theorem lang_monthShape {w : Str} : Lang Rx.monthX w ↔ MonthShape (c! "X") w :=
  lang_shape (cls_lang _ (by decide) (by decide +kernel)) (cls_lang _ (by decide) (by decide +kernel))
    (cls_lang _ (by decide) (by decide +kernel)) (cls_lang _ (by decide) (by decide +kernel))
theorem lang_monthShape' {w : Str} : Lang Rx.monthX.ci w ↔ MonthShape (c! "Xx") w :=
  lang_shape (cls_lang _ (by decide) (by decide +kernel)) (cls_lang _ (by decide) (by decide +kernel))
    (cls_lang _ (by decide) (by decide +kernel)) (cls_lang _ (by decide) (by decide +kernel))
theorem lang_dayShape {w : Str} : Lang dayAlt w ↔ DayShape (c! "X") w :=
  lang_shape (cls_lang _ (by decide) (by decide +kernel)) (cls_lang _ (by decide) (by decide +kernel))
    (cls_lang _ (by decide) (by decide +kernel)) (cls_lang _ (by decide) (by decide +kernel))
theorem lang_dayShape' {w : Str} : Lang dayAlt.ci w ↔ DayShape (c! "Xx") w :=
  lang_shape (cls_lang _ (by decide) (by decide +kernel)) (cls_lang _ (by decide) (by decide +kernel))
    (cls_lang _ (by decide) (by decide +kernel)) (cls_lang _ (by decide) (by decide +kernel))

/-- A year, and perhaps a month, and perhaps a day after it. -/
theorem lang_ymd {y m d : Re} {Y M D : Str → Prop} (hy : ∀ w, Lang y w ↔ Y w) (hm : ∀ w, Lang m w ↔ M w) (hd : ∀ w, Lang d w ↔ D w)
    {i j k : Nat} {w : Str} : Lang (.grp i y ⬝ .opt (Rx.lit '-' ⬝ .grp j m ⬝ .opt (Rx.lit '-' ⬝ .grp k d))) w ↔
      ∃ x t, Y x ∧ w = x ++ t ∧ (t = [] ∨ ∃ m u, M m ∧ t = '-' :: (m ++ u) ∧ (u = [] ∨ ∃ d, D d ∧ u = '-' :: d)) := by
  rw [lang_cat]
  simp only [lang_grp, lang_opt, lang_consLit, lang_cat (a := .grp j m), hy, hm, hd]
  constructor
  · rintro ⟨x, t, rfl, hx, h⟩
    refine ⟨x, t, hx, rfl, ?_⟩
    rcases h with rfl | ⟨_, rfl, m, u, rfl, hm, h⟩
    · exact Or.inl rfl
    · refine Or.inr ⟨m, u, hm, rfl, ?_⟩
      rcases h with rfl | ⟨d, rfl, hd⟩
      · exact Or.inl rfl
      · exact Or.inr ⟨d, hd, rfl⟩
  · rintro ⟨x, t, hx, rfl, h⟩
    refine ⟨x, t, rfl, hx, ?_⟩
    rcases h with rfl | ⟨m, u, hm, rfl, h⟩
    · exact Or.inl rfl
    · refine Or.inr ⟨_, rfl, m, u, rfl, hm, ?_⟩
      rcases h with rfl | ⟨d, hd, rfl⟩
      · exact Or.inl rfl
      · exact Or.inr ⟨d, rfl, hd⟩

theorem lang_unspecifiedForm {g : Nat} {w : Str} : Lang (Rx.unspecifiedDigits g) w ↔ UnspecifiedForm (c! "X") w :=
  lang_ymd (fun _ => lang_places4 lang_placeX) (fun _ => lang_monthShape) (fun _ => lang_dayShape)
theorem lang_digitForm {g : Nat} {w : Str} : Lang (Rx.unspecifiedDigit g) w ↔ DigitForm (c! "X") w :=
  lang_ymd (fun _ => lang_places4 lang_placeX) (fun _ => lang_places2 lang_placeX) (fun _ => lang_places2 lang_placeX)

/-! ### Without regard to case -/

theorem lang_ci_cat {a b : Re} {w : Str} : Lang (a ⬝ b).ci w ↔ Lang (a.ci ⬝ b.ci) w := Iff.rfl

theorem lang_dash {w : Str} : Lang (Rx.lit '-').ci w ↔ Lang (Rx.lit '-') w := lang_ci_noLetter (by decide) w

theorem lang_unspecifiedForm' {g : Nat} {w : Str} : Lang (Rx.unspecifiedDigits g).ci w ↔ UnspecifiedForm (c! "Xx") w := by
  have e : (Rx.unspecifiedDigits g).ci = (.grp g (Re.rep Rx.digX.ci 4) ⬝ .opt ((Rx.lit '-').ci ⬝ .grp (g + 1) Rx.monthX.ci ⬝
    .opt ((Rx.lit '-').ci ⬝ .grp (g + 2) dayAlt.ci))) := rfl
  have h : Lang (Rx.unspecifiedDigits g).ci w ↔ Lang (.grp g (Re.rep Rx.digX.ci 4) ⬝ .opt (Rx.lit '-' ⬝ .grp (g + 1) Rx.monthX.ci ⬝
    .opt (Rx.lit '-' ⬝ .grp (g + 2) dayAlt.ci))) w := by
    rw [e]
    simp only [lang_cat, lang_opt, lang_dash]
  rw [h]
  exact lang_ymd (fun _ => lang_places4 lang_placeXx) (fun _ => lang_monthShape') (fun _ => lang_dayShape')

theorem lang_digitForm' {g : Nat} {w : Str} : Lang (Rx.unspecifiedDigit g).ci w ↔ DigitForm (c! "Xx") w := by
  have e : (Rx.unspecifiedDigit g).ci = (.grp g (Re.rep Rx.digX.ci 4) ⬝ .opt ((Rx.lit '-').ci ⬝ .grp (g + 1) (Re.rep Rx.digX.ci 2) ⬝
    .opt ((Rx.lit '-').ci ⬝ .grp (g + 2) (Re.rep Rx.digX.ci 2)))) := rfl
  have h : Lang (Rx.unspecifiedDigit g).ci w ↔ Lang (.grp g (Re.rep Rx.digX.ci 4) ⬝ .opt (Rx.lit '-' ⬝ .grp (g + 1) (Re.rep Rx.digX.ci 2) ⬝
    .opt (Rx.lit '-' ⬝ .grp (g + 2) (Re.rep Rx.digX.ci 2)))) w := by
    rw [e]
    simp only [lang_cat, lang_opt, lang_dash]
  rw [h]
  exact lang_ymd (fun _ => lang_places4 lang_placeXx) (fun _ => lang_places2 lang_placeXx) (fun _ => lang_places2 lang_placeXx)

/-! ### Level 2 -/

theorem lang_consCls {f : Bool} {rs : List (Char × Char)} {L : Str} (hL : ∀ w, Lang (.cls f rs) w ↔ ∃ c, w = [c] ∧ c ∈ L) {r : Re} {w : Str} :
    Lang (.cls f rs ⬝ r) w ↔ ∃ c ∈ L, ∃ v, w = c :: v ∧ Lang r v := by
  rw [lang_cat]
  simp only [hL]
  constructor
  · rintro ⟨_, v, rfl, ⟨c, rfl, hc⟩, hv⟩; exact ⟨c, hc, v, rfl, hv⟩
  · rintro ⟨c, hc, v, rfl, hv⟩; exact ⟨[c], v, rfl, ⟨c, rfl, hc⟩, hv⟩

theorem lang_Yy (w : Str) : Lang (Rx.lit 'Y').ci w ↔ ∃ c, w = [c] ∧ c ∈ c! "Yy" := cls_lang _ (by decide) (by decide +kernel) w

theorem lang_exponentialForm {g : Nat} {w : Str} : Lang (Rx.exponentialYear g) w ↔ ExponentialForm w := by
  have e : Rx.exponentialYear g = ((Rx.lit 'Y').ci ⬝ .grp g (.opt (Rx.lit '-') ⬝ .plus Rx.digit ⬝ Rx.lit 'E' ⬝ .plus Rx.digit).ci) := rfl
  rw [e]
  rw [show (Rx.lit 'Y').ci = .cls true [('Y', 'Y')] from rfl, lang_consCls lang_Yy]
  simp only [lang_grp, lang_notation]
  unfold ExponentialForm
  constructor
  · rintro ⟨y, hy, _, rfl, neg, ms, es, ec, hec, hm, hm0, he, he0, rfl⟩
    obtain ⟨ms', hm', rfl⟩ := digits_iff.1 ⟨hm, hm0⟩
    obtain ⟨es', he', rfl⟩ := digits_iff.1 ⟨he, he0⟩
    exact ⟨y, hy, ec, by rcases hec with rfl | rfl <;> decide, neg, ms', es', hm', he', rfl⟩
  · rintro ⟨y, hy, ec, hec, neg, ms, es, hm, he, rfl⟩
    obtain ⟨a1, a2⟩ := digits_iff.2 ⟨ms, hm, rfl⟩
    obtain ⟨b1, b2⟩ := digits_iff.2 ⟨es, he, rfl⟩
    exact ⟨y, hy, _, rfl, neg, _, _, ec, (by decide : ∀ ec ∈ c! "Ee", ec = 'E' ∨ ec = 'e') ec hec, a1, a2, b1, b2, rfl⟩

theorem lang_letterForm' {g : Nat} {w : Str} : Lang (Rx.letterPrefixed g).ci w ↔ LetterForm (c! "Yy") w := by
  have e : (Rx.letterPrefixed g).ci = (.cls true [('Y', 'Y')] ⬝ .grp g (.opt (Rx.lit '-') ⬝ .plus Rx.digit).ci) := rfl
  have h : ∀ v, Lang (.opt (Rx.lit '-') ⬝ .plus Rx.digit).ci v ↔ Lang (.opt (Rx.lit '-') ⬝ .plus Rx.digit) v := fun v => lang_ci_noLetter (by decide) v
  rw [e, lang_consCls lang_Yy]
  simp only [lang_grp, h, lang_signedForm]
  unfold LetterForm
  constructor
  · rintro ⟨y, hy, _, rfl, neg, ds, hd, rfl⟩; exact ⟨y, hy, neg, ds, hd, rfl⟩
  · rintro ⟨y, hy, neg, ds, hd, rfl⟩; exact ⟨y, hy, _, rfl, neg, ds, hd, rfl⟩

theorem sig_form {a b c : Re} {f : Bool} {rs : List (Char × Char)} {d : Re} {ys ss : Str} (ha : ∀ w, Lang a w ↔ Lang Rx.year4 w)
    (hb : ∀ w, Lang b w ↔ LetterForm ys w) (hc : ∀ w, Lang c w ↔ ExponentialForm w) (hs : ∀ w, Lang (.cls f rs) w ↔ ∃ c, w = [c] ∧ c ∈ ss)
    (hd : ∀ w, Lang d w ↔ Lang (.plus Rx.digit) w) {w : Str} : Lang ((a ∥ b ∥ c) ⬝ .cls f rs ⬝ d) w ↔ SignificantForm ys ss w := by
  rw [lang_cat]
  simp only [lang_alt, ha, hb, hc, lang_consCls hs, hd, lang_year_signed, lang_plusDigit, digits_iff]
  unfold SignificantForm
  constructor
  · rintro ⟨u, _, rfl, hu, x, hx, _, rfl, ds, hd, rfl⟩; exact ⟨u, hu, x, hx, ds, hd, rfl⟩
  · rintro ⟨u, hu, x, hx, ds, hd, rfl⟩; exact ⟨u, _, rfl, hu, x, hx, _, rfl, ds, hd, rfl⟩

theorem lang_significantForm {g : Nat} {w : Str} : Lang (Rx.significantDigits g) w ↔ SignificantForm (c! "Y") (c! "S") w :=
  sig_form (fun _ => Iff.rfl) (fun _ => lang_letterForm) (fun _ => lang_exponentialForm) (cls_lang _ (by decide) (by decide +kernel)) (fun _ => Iff.rfl)

theorem lang_significantForm' {g : Nat} {w : Str} : Lang (Rx.significantDigits g).ci w ↔ SignificantForm (c! "Yy") (c! "Ss\u017f") w :=
  sig_form (a := (Re.grp g Rx.year4).ci) (b := (Rx.letterPrefixed (g + 1)).ci) (c := (Rx.exponentialYear (g + 2)).ci) (d := (Re.grp (g + 3) (.plus Rx.digit)).ci)
    (fun _ => lang_ci_noLetter (r := .grp g Rx.year4) (by rfl) _) (fun _ => lang_letterForm')
    (fun _ => lang_exponentialForm (g := g + 2))
    (cls_lang _ (by decide) (by decide +kernel))
    (fun _ => lang_ci_noLetter (r := .grp (g + 3) (.plus Rx.digit)) (by rfl) _)

theorem lang_subYearForm {w : Str} : Lang (Rx.subYearGrouping 1) w ↔ SubYearForm w := lang_subYear

theorem lang_groupForm {g : Nat} {w : Str} : Lang (Rx.groupQualification g) w ↔ GroupForm w := by
  unfold Rx.groupQualification GroupForm
  simp only [lang_cat (a := .grp _ _), lang_cat (a := Rx.qOpt _), lang_grp, lang_opt, lang_consLit, lang_mark, lang_places4 lang_place, lang_places2 lang_place]
  constructor
  · rintro ⟨y, _, rfl, hy, q, t, rfl, hq, h⟩
    refine ⟨y, q, t, hy, hq, rfl, ?_⟩
    rcases h with rfl | ⟨_, rfl, m, _, rfl, hm, q', u, rfl, hq', h⟩
    · exact Or.inl rfl
    · refine Or.inr ⟨m, q', u, hm, hq', rfl, ?_⟩
      rcases h with rfl | ⟨_, rfl, d, q'', rfl, hd, hq''⟩
      · exact Or.inl rfl
      · exact Or.inr ⟨d, q'', hd, hq'', rfl⟩
  · rintro ⟨y, q, t, hy, hq, rfl, h⟩
    refine ⟨y, _, rfl, hy, q, t, rfl, hq, ?_⟩
    rcases h with rfl | ⟨m, q', u, hm, hq', rfl, h⟩
    · exact Or.inl rfl
    · refine Or.inr ⟨_, rfl, m, _, rfl, hm, q', u, rfl, hq', ?_⟩
      rcases h with rfl | ⟨d, q'', hd, hq'', rfl⟩
      · exact Or.inl rfl
      · exact Or.inr ⟨_, rfl, d, q'', rfl, hd, hq''⟩

/-- The half of an interval: qualifiers in front. -/
theorem lang_half {p y m d r s : Re} {sg : Bool} {xs : Str} (hp : ∀ w, Lang p w ↔ Mark w) (hr : ∀ w, Lang r w ↔ Mark w) (hs : ∀ w, Lang s w ↔ Mark w)
    (hy : ∀ w, Lang y w ↔ ∃ neg v, (neg = true → sg = true) ∧ Places 4 xs v ∧ w = signed neg v) (hm : ∀ w, Lang m w ↔ Places 2 xs w)
    (hd : ∀ w, Lang d w ↔ Places 2 xs w) {l l' : Re} (hl : ∀ w, Lang l w ↔ Lang (Rx.lit '-') w) (hl' : ∀ w, Lang l' w ↔ Lang (Rx.lit '-') w)
    {i j k : Nat} {w : Str} :
    Lang (p ⬝ .grp i y ⬝ .opt (l ⬝ r ⬝ .grp j m ⬝ .opt (l' ⬝ s ⬝ .grp k d))) w ↔ EndpointForm sg xs w := by
  have c1 : ∀ {a : Re} {w : Str}, Lang (l ⬝ a) w ↔ ∃ v, w = '-' :: v ∧ Lang a v := by
    intro a w
    rw [← lang_consLit, lang_cat, lang_cat]
    simp only [hl]
  have c2 : ∀ {a : Re} {w : Str}, Lang (l' ⬝ a) w ↔ ∃ v, w = '-' :: v ∧ Lang a v := by
    intro a w
    rw [← lang_consLit, lang_cat, lang_cat]
    simp only [hl']
  unfold EndpointForm
  simp only [lang_cat (a := .grp _ _), lang_cat (a := p), lang_cat (a := r), lang_cat (a := s), lang_grp, lang_opt, c1, c2, hp, hr, hs, hy, hm, hd]
  constructor
  · rintro ⟨q, _, rfl, hq, _, t, rfl, ⟨neg, y, hn, hy, rfl⟩, h⟩
    refine ⟨q, neg, y, t, hq, hn, hy, rfl, ?_⟩
    rcases h with rfl | ⟨_, rfl, q', _, rfl, hq', m, u, rfl, hm, h⟩
    · exact Or.inl rfl
    · refine Or.inr ⟨q', m, u, hq', hm, rfl, ?_⟩
      rcases h with rfl | ⟨_, rfl, q'', d, rfl, hq'', hd⟩
      · exact Or.inl rfl
      · exact Or.inr ⟨q'', d, hq'', hd, rfl⟩
  · rintro ⟨q, neg, y, t, hq, hn, hy, rfl, h⟩
    refine ⟨q, _, rfl, hq, _, t, rfl, ⟨neg, y, hn, hy, rfl⟩, ?_⟩
    rcases h with rfl | ⟨q', m, u, hq', hm, rfl, h⟩
    · exact Or.inl rfl
    · refine Or.inr ⟨_, rfl, q', _, rfl, hq', m, u, rfl, hm, ?_⟩
      rcases h with rfl | ⟨q'', d, hq'', hd, rfl⟩
      · exact Or.inl rfl
      · exact Or.inr ⟨_, rfl, q'', d, rfl, hq'', hd⟩

theorem lang_individualForm {g : Nat} {w : Str} : Lang (Rx.individualQualification g) w ↔ EndpointForm false [] w :=
  lang_half (fun _ => lang_mark) (fun _ => lang_mark) (fun _ => lang_mark)
    (fun w => by
      rw [lang_places4 lang_place]
      constructor
      · intro h; exact ⟨false, w, by simp, h, rfl⟩
      · rintro ⟨neg, v, hn, hv, rfl⟩
        cases neg
        · exact hv
        · cases hn rfl)
    (fun _ => lang_places2 lang_place) (fun _ => lang_places2 lang_place) (fun _ => Iff.rfl) (fun _ => Iff.rfl)

theorem lang_signedPlaces {l x : Re} {xs : Str} (hl : ∀ w, Lang l w ↔ Lang (Rx.lit '-') w) (hx : ∀ w, Lang x w ↔ Places 4 xs w) (w : Str) :
    Lang (.opt l ⬝ x) w ↔ ∃ neg v, (neg = true → (true : Bool) = true) ∧ Places 4 xs v ∧ w = signed neg v := by
  simp only [lang_cat, lang_opt, hl, lang_lit, hx]
  constructor
  · rintro ⟨_, v, rfl, rfl | rfl, hv⟩
    · exact ⟨false, v, by simp, hv, rfl⟩
    · exact ⟨true, v, by simp, hv, rfl⟩
  · rintro ⟨neg, v, -, hv, rfl⟩
    cases neg
    · exact ⟨[], v, rfl, Or.inl rfl, hv⟩
    · exact ⟨['-'], v, rfl, Or.inr rfl, hv⟩

theorem lang_halfForm {g : Nat} {w : Str} : Lang (Rx.intervalHalf g) w ↔ EndpointForm true (c! "X") w :=
  lang_half (fun _ => lang_mark) (fun _ => lang_mark) (fun _ => lang_mark)
    (lang_signedPlaces (fun _ => Iff.rfl) (fun _ => lang_places4 lang_placeX))
    (fun _ => lang_places2 lang_placeX) (fun _ => lang_places2 lang_placeX) (fun _ => Iff.rfl) (fun _ => Iff.rfl)

theorem lang_mark' {g : Nat} {w : Str} : Lang (Rx.qOpt g).ci w ↔ Mark w := by
  rw [lang_ci_noLetter (r := Rx.qOpt g) (by rfl), lang_mark]

theorem lang_halfForm' {g : Nat} {w : Str} : Lang (Rx.intervalHalf g).ci w ↔ EndpointForm true (c! "Xx") w :=
  lang_half (p := (Rx.qOpt g).ci) (y := Rx.yearX.ci) (m := (Re.rep Rx.digX 2).ci) (d := (Re.rep Rx.digX 2).ci) (r := (Rx.qOpt (g + 2)).ci) (s := (Rx.qOpt (g + 4)).ci)
    (fun _ => lang_mark') (fun _ => lang_mark') (fun _ => lang_mark')
    (lang_signedPlaces (x := Re.rep Rx.digX.ci 4) (l := (Rx.lit '-').ci) (fun _ => lang_dash) (fun _ => lang_places4 lang_placeXx))
    (fun _ => lang_places2 lang_placeXx) (fun _ => lang_places2 lang_placeXx) (fun _ => lang_dash) (fun _ => lang_dash)

theorem lang_intervalForm {g : Nat} {w : Str} : Lang (Rx.interval g) w ↔ IntervalForm (c! "X") w := by
  unfold Rx.interval IntervalForm
  rw [lang_cat]
  simp only [lang_consLit, lang_halfForm]
  constructor
  · rintro ⟨a, _, rfl, ha, b, rfl, hb⟩; exact ⟨a, b, ha, hb, rfl⟩
  · rintro ⟨a, b, ha, hb, rfl⟩; exact ⟨a, _, rfl, ha, b, rfl, hb⟩

theorem lang_intervalForm' {g : Nat} {w : Str} : Lang (Rx.interval g).ci w ↔ IntervalForm (c! "Xx") w := by
  have e : (Rx.interval g).ci = ((Rx.intervalHalf g).ci ⬝ (Rx.lit '/').ci ⬝ (Rx.intervalHalf (g + 6)).ci) := rfl
  have h : ∀ w, Lang (Rx.lit '/').ci w ↔ Lang (Rx.lit '/') w := fun w => lang_ci_noLetter (by decide) w
  rw [e]
  unfold IntervalForm
  simp only [lang_cat, lang_halfForm', h, lang_lit]
  constructor
  · rintro ⟨a, _, rfl, ha, _, b, rfl, rfl, hb⟩; exact ⟨a, b, ha, hb, rfl⟩
  · rintro ⟨a, b, ha, hb, rfl⟩; exact ⟨a, _, rfl, ha, _, b, rfl, rfl, hb⟩

theorem lang_stepForm {w : Str} : Lang setStep w ↔ ∃ d p, DateShape d ∧ (p = [] ∨ p = c! "," ∨ p = c! "..") ∧ w = d ++ p := by
  unfold setStep
  rw [lang_cat]
  simp only [lang_dateForm, lang_opt, lang_alt, lang_lit, lang_dots]
  constructor
  · rintro ⟨d, p, rfl, hd, hp⟩; exact ⟨d, p, hd, hp, rfl⟩
  · rintro ⟨d, p, hd, hp, rfl⟩; exact ⟨d, p, rfl, hd, hp⟩

theorem star_items {v : Str} (h : Star (Lang setStep) v) : v = [] ∨ ItemsForm v := by
  induction h with
  | nil => exact Or.inl rfl
  | cons u v hu _ _ ih =>
    obtain ⟨d, p, hd, hp, rfl⟩ := lang_stepForm.1 hu
    rcases ih with rfl | ih
    · rw [List.append_nil]; exact Or.inr (.one hd hp)
    · exact Or.inr (.more hd hp ih)

theorem items_plus {v : Str} (h : ItemsForm v) : ∃ u t, v = u ++ t ∧ Lang setStep u ∧ Star (Lang setStep) t := by
  have ne : ∀ {d p : Str}, DateShape d → d ++ p ≠ [] := by
    rintro d p ⟨x, -, rfl⟩ e
    exact date0_ne_nil x (List.append_eq_nil_iff.1 e).1
  induction h with
  | @one d p hd hp => exact ⟨d ++ p, [], by simp, lang_stepForm.2 ⟨d, p, hd, hp, rfl⟩, .nil⟩
  | @more d p t hd hp _ ih =>
    obtain ⟨u, t', rfl, hu, ht⟩ := ih
    refine ⟨d ++ p, u ++ t', rfl, lang_stepForm.2 ⟨d, p, hd, hp, rfl⟩, .cons u t' hu ?_ ht⟩
    obtain ⟨d', p', hd', hp', rfl⟩ := lang_stepForm.1 hu
    exact ne hd'

theorem lang_setForm {w : Str} : Lang (Rx.setRepresentations 1) w ↔ SetForm w := by
  have e : Rx.setRepresentations 1 = (.grp 1 (Rx.lit '[' ∥ Rx.lit '{') ⬝ .grp 2 (.opt Rx.dots ⬝ (.plus setStep ⬝ .opt Rx.dots)) ⬝
    .cls false [('}', '}'), (']', ']')]) := rfl
  have hc : ∀ w, Lang (.cls false [('}', '}'), (']', ']')]) w ↔ ∃ c, w = [c] ∧ c ∈ c! "]}" := cls_lang _ (by decide) (by decide +kernel)
  rw [e]
  unfold SetForm
  simp only [lang_cat (a := .grp _ _), lang_cat (a := .opt _), lang_cat (a := .plus _), lang_grp, lang_alt, lang_lit, lang_optDots', hc]
  constructor
  · rintro ⟨o, _, rfl, ho, _, _, rfl, ⟨l, _, rfl, hl, _, r, rfl, ⟨u, t, rfl, hu, ht⟩, hr⟩, c, rfl, hc⟩
    have : ∃ o' ∈ c! "[{", o = [o'] := by
      rcases ho with rfl | rfl
      · exact ⟨'[', by decide, rfl⟩
      · exact ⟨'{', by decide, rfl⟩
    obtain ⟨o', ho', rfl⟩ := this
    have hm : ItemsForm (u ++ t) := by
      obtain ⟨d, p, hd, hp, rfl⟩ := lang_stepForm.1 hu
      rcases star_items ht with rfl | h
      · rw [List.append_nil]; exact .one hd hp
      · exact .more hd hp h
    exact ⟨o', ho', c, hc, l, u ++ t, r, hl, hm, hr, by simp⟩
  · rintro ⟨o, ho, c, hc, l, m, r, hl, hm, hr, rfl⟩
    obtain ⟨u, t, rfl, hu, ht⟩ := items_plus hm
    refine ⟨[o], _, rfl, ?_, l ++ ((u ++ t) ++ r), [c], by simp, ⟨l, _, rfl, hl, u ++ t, r, rfl, ⟨u, t, rfl, hu, ht⟩, hr⟩, c, rfl, hc⟩
    exact (by decide : ∀ o ∈ c! "[{", [o] = ['['] ∨ [o] = ['{']) o ho

end EDTF
