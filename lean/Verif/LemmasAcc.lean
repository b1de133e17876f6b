/-
The accepted language, Level 0 and Level 1: which strings of each feature parse.
-/
import Verif.LemmasRead
import Verif.PropsTime
import Verif.PropsPanic
import Verif.PropsSet
namespace EDTF
open Spec

theorem bind_ok_iff {α β : Type} {r : Res α} {g : α → β} : (∃ d, (r >>= fun x => Res.ok (g x)) = .ok d) ↔ ∃ x, r = .ok x := by
  constructor
  · rintro ⟨d, h⟩
    obtain ⟨x, hx, -⟩ := Res.bind_eq_ok.1 h
    exact ⟨x, hx⟩
  · rintro ⟨x, rfl⟩
    exact ⟨_, rfl⟩

theorem reads_iff {s : Str} : (∃ sp, dateSpanFromYMD s = .ok sp) ↔ Reads s := by
  constructor
  · rintro ⟨sp, h⟩
    exact readable_of_ok h
  · rintro ⟨e, ⟨h1, h2⟩, rfl⟩
    exact (readable_iff h1).2 h2

theorem qtext_none (x : Date0) : x.qtext .none .none .none = x.text := by
  rw [← Date0.form_text]
  obtain ⟨neg, n, t⟩ := x
  cases t <;> simp [Date0.form, YMDForm.text, Comp.text, date0_text, Deco.text]

theorem span_date0_iff {x : Date0} (hy : x.year < 10000) (hs : Date0.shapeOk x) : (∃ sp, dateSpanFromYMD x.text = .ok sp) ↔ x.ok := by
  constructor
  · rintro ⟨sp, h⟩
    obtain ⟨neg, n, t⟩ := x
    cases t with
    | none => exact ⟨hy, trivial⟩
    | month m => exact ⟨hy, hs⟩
    | day m d =>
      obtain ⟨m1, m2, d1, d2⟩ := hs
      by_cases hv : d ≤ monthLen (if neg then -(n : Int) else n) m
      · exact ⟨hy, m1, m2, d1, hv⟩
      · have := dateSpan_date0_bad (neg := neg) hy m1 m2 (Nat.lt_of_not_le hv) d2 (qy := .none) (qm := .none) (qd := .none) ⟨rfl, rfl, rfl⟩
        rw [qtext_none, h] at this
        cases this
  · intro h
    have := dateSpan_date0 h (qOk_none x)
    rw [qtext_none] at this
    exact ⟨_, this⟩

/-! ### Level 0 -/

theorem acc_date {s : Str} (h : L0.isDate s = true) : (∃ d, parseString s = .ok d) ↔ ∃ x : Date0, x.ok ∧ s = x.text := by
  rw [parseString_isDate h, parseDate_eq h, bind_ok_iff]
  obtain ⟨x, hy, hs, rfl⟩ := isDate_iff.1 h
  constructor
  · intro h
    exact ⟨x, (span_date0_iff hy hs).1 h, rfl⟩
  · rintro ⟨x', h', e⟩
    rw [e]
    exact (span_date0_iff h'.1 (Date0.ok_shape h')).2 h'

theorem acc_date_of {x : Date0} (h : x.ok) : ∃ d, parseString x.text = .ok d :=
  (acc_date (isDate_iff.2 ⟨x, h.1, Date0.ok_shape h, rfl⟩)).2 ⟨x, h, rfl⟩

theorem acc_clock_of {neg : Bool} {y m d hh mi ss : Nat} {z : Zone} (hy : y < 10000) (V : Valid y m d) (k1 : hh < 24) (k2 : mi < 60) (k3 : ss < 60)
    (hz : z.ok) : ∃ r, parseString (clockText neg y m d hh mi ss z) = .ok r := by
  have hd : d ≤ 31 := by
    have := V.2.2.2
    have := monthLen_le y m
    omega
  rw [parse_clock hy V.1 V.2.1 V.2.2.1 hd (by omega) (by omega) (by omega) (zone_shape hz), if_pos ⟨V, ⟨k1, k2, k3⟩, hz⟩]
  exact ⟨_, rfl⟩

theorem acc_time {s : Str} (h : L0.isDateAndTime s = true) {r : EDTFDate} (hp : parseString s = .ok r) :
    ∃ (neg : Bool) (y m d hh mi ss : Nat) (z : Zone), y < 10000 ∧ Valid y m d ∧ hh < 24 ∧ mi < 60 ∧ ss < 60 ∧ z.ok ∧
      s = clockText neg y m d hh mi ss z := by
  unfold L0.isDateAndTime at h
  rw [← isSome_submatch, Option.isSome_iff_exists] at h
  obtain ⟨c, hc⟩ := h
  obtain ⟨⟨neg, y, t⟩, hh, mi, ss, z, ⟨hy, hs⟩, k1, k2, k3, hz, rfl, -⟩ := dt_caps hc
  cases t with
  | none =>
    rw [C06_needs_day hy (Or.inl rfl) k1 k2 k3 hz] at hp
    cases hp
  | month m =>
    rw [C06_needs_day hy (Or.inr ⟨m, rfl, hs⟩) k1 k2 k3 hz] at hp
    cases hp
  | day m d =>
    obtain ⟨m1, m2, d1, d2⟩ := hs
    simp only at m1 m2 d1 d2 hy
    rw [← clockText_eq, parse_clock hy m1 m2 d1 d2 k1 k2 k3 hz] at hp
    split at hp
    · rename_i hv
      exact ⟨neg, y, m, d, hh, mi, ss, z, hy, hv.1, hv.2.1.1, hv.2.1.2.1, hv.2.1.2.2, hv.2.2, (clockText_eq ..).symm⟩
    · cases hp

/-- A date as an endpoint. -/
def dateE (x : Date0) : Endpoint :=
  ⟨⟨x.neg, pad4 x.year, match x.tail with | .none => .none | .month m => .month (pad2 m) | .day m d => .day (pad2 m) (pad2 d)⟩, .none, .none, .none⟩

theorem dateE_text (x : Date0) : (dateE x).text = x.text := by
  obtain ⟨neg, n, t⟩ := x
  cases neg <;> cases t <;> simp [dateE, Endpoint.text, date0_text, yearStr, sgn, Deco.text]

theorem dig_xdigit {w : Str} (h : w.all isDig = true) : ∀ c ∈ w, XDigit c := by
  intro c hc
  rw [List.all_eq_true] at h
  rw [xdigit_iff]
  unfold isDX
  rw [h c hc]
  rfl

theorem dateE_ok (x : Date0) : (dateE x).ok := by
  obtain ⟨neg, n, t⟩ := x
  refine ⟨⟨⟨pad4_length n, dig_xdigit (pad4_all n), ?_⟩, rfl, rfl, rfl, ?_⟩, ?_⟩
  · cases t with
    | none => trivial
    | month m => exact ⟨pad2_length m, dig_xdigit (pad2_all m)⟩
    | day m d => exact ⟨pad2_length m, dig_xdigit (pad2_all m), pad2_length d, dig_xdigit (pad2_all d)⟩
  · cases t <;> simp [dateE]
  · simp [noRight, dateE, Deco.isRight]

theorem span_some {s : Str} {sp : DateSpan} (h : dateSpanFromYMD s = .ok sp) : ∃ a b, sp = ⟨some a, some b⟩ := by
  obtain ⟨F, y1, y2, m1, m2, d1, d2, py, hF, hE, hY, hM, hD, V1, V2, hsp⟩ := dateSpan_inv h
  exact ⟨_, _, hsp⟩

theorem iv_readable {a b : Endpoint} (ha : a.ok) (hb : b.ok) :
    (∃ r, parseString (a.text ++ '/' :: b.text) = .ok r) ↔ a.Readable ∧ b.Readable := by
  constructor
  · rintro ⟨r, h⟩
    obtain ⟨ls, le, rs, re, h1, h2, -⟩ := ivsplit ha hb h
    exact ⟨⟨ha.1, (readable_iff ha.1).1 ⟨_, h1⟩⟩, ⟨hb.1, (readable_iff hb.1).1 ⟨_, h2⟩⟩⟩
  · rintro ⟨h1, h2⟩
    obtain ⟨sp1, k1⟩ := (readable_iff ha.1).2 h1.2
    obtain ⟨sp2, k2⟩ := (readable_iff hb.1).2 h2.2
    obtain ⟨ls, le, rfl⟩ := span_some k1
    obtain ⟨rs, re, rfl⟩ := span_some k2
    obtain ⟨r, h, -⟩ := ivjoin ha hb k1 k2
    exact ⟨r, h⟩

theorem acc_interval {s : Str} {a b : Endpoint} (ha : a.ok) (hb : b.ok) (hs : s = a.text ++ '/' :: b.text) {r : EDTFDate} (hp : parseString s = .ok r) :
    Accepted s := by
  subst hs
  obtain ⟨h1, h2⟩ := (iv_readable ha hb).1 ⟨r, hp⟩
  exact .interval a b h1 h2 ha.2 hb.2

theorem acc_level0 {s : Str} (h : L0.isLevel0 s = true) {r : EDTFDate} (hp : parseString s = .ok r) : Accepted s := by
  rw [isLevel0_iff, Bool.or_eq_true, Bool.or_eq_true] at h
  rcases h with (h | h) | h
  · obtain ⟨x, hx, rfl⟩ := (acc_date h).1 ⟨r, hp⟩
    exact .date x hx
  · obtain ⟨neg, y, m, d, hh, mi, ss, z, hy, V, k1, k2, k3, hz, rfl⟩ := acc_time h hp
    exact .time neg y m d hh mi ss z hy V k1 k2 k3 hz
  · obtain ⟨a, b, -, -, rfl⟩ := isTimeInterval_iff.1 h
    exact acc_interval (dateE_ok a) (dateE_ok b) (by rw [dateE_text, dateE_text]) hp

/-! ### Letter years and seasons -/

theorem acc_letter {s : Str} (h : Lang (Rx.letterPrefixed 1) s) {r : EDTFDate} (hp : parseString s = .ok r) : Accepted s := by
  obtain ⟨u, v, rfl, hu, hv⟩ := lang_cat.1 h
  rw [lang_lit] at hu
  subst hu
  obtain ⟨neg, us, hd, hne, rfl⟩ := lang_signed_iff.1 (lang_grp.1 hv)
  have hp' : parseString ('Y' :: sgn neg us) = .ok r := hp
  rw [parse_letter hd hne] at hp'
  split at hp'
  · cases hp'
  · obtain ⟨sp, h1, -⟩ := Res.bind_eq_ok.1 hp'
    by_cases hl : us.length = 4
    · obtain ⟨n, hn, rfl⟩ := four_digits' hd hl
      exact .letter neg n hn
    · have hns : '/' ∉ sgn neg us := by
        intro hm
        exact digits_not_mem hd (by decide) ((mem_sgn (by decide)).1 hm)
      have := (halfSpan_digits (t := []) neg hd hne hl (Or.inl rfl)).2
      rw [List.append_nil] at this
      rw [dateSpanFromEDTF_noSlash hns, this] at h1
      cases h1

theorem season_of_code {m : Nat} (h1 : 21 ≤ m) (h2 : m ≤ 24) : ∃ z : Season, z.code = m := by
  have : m = 21 ∨ m = 22 ∨ m = 23 ∨ m = 24 := by omega
  rcases this with rfl | rfl | rfl | rfl
  · exact ⟨.spring, rfl⟩
  · exact ⟨.summer, rfl⟩
  · exact ⟨.fall, rfl⟩
  · exact ⟨.winter, rfl⟩

theorem month_level0 (neg : Bool) {n m : Nat} (hn : n < 10000) (h1 : 1 ≤ m) (h2 : m ≤ 12) : L0.isLevel0 (yearStr neg n ++ '-' :: pad2 m) = true := by
  rw [isLevel0_iff, show L0.isDate (yearStr neg n ++ '-' :: pad2 m) = true from
    isDate_iff.2 ⟨⟨neg, n, .month m⟩, hn, ⟨h1, h2⟩, by simp [date0_text]⟩]
  rfl

theorem acc_seasonNum {s : Str} (h0 : L0.isLevel0 s = false) (h : Lang (Rx.seasonNum 1) s) {r : EDTFDate} (hp : parseString s = .ok r) : Accepted s := by
  obtain ⟨u, v, rfl, hu, hv⟩ := lang_cat.1 h
  obtain ⟨neg, n, hn, rfl⟩ := lang_year4'.1 (lang_grp.1 hu)
  obtain ⟨u, w, rfl, hu, hw⟩ := lang_cat.1 hv
  rw [lang_lit] at hu
  subst hu
  obtain ⟨m, -, hm, rfl⟩ := lang_seasonCode.1 (lang_grp.1 hw)
  rcases hm with ⟨m1, m2⟩ | ⟨m1, m2⟩
  · rw [show yearStr neg n ++ (['-'] ++ pad2 m) = yearStr neg n ++ '-' :: pad2 m from rfl, month_level0 neg hn m1 m2] at h0
    cases h0
  · obtain ⟨z, rfl⟩ := season_of_code m1 m2
    have key := (C18_numeric_partial dayCount_unixDay neg hn z rfl).2
    have : ¬ ((-999 ≤ (if neg then -(n : Int) else n) ∧ (if neg then -(n : Int) else n) ≤ -1) ∨
        (z = .winter ∧ ((if neg then -(n : Int) else n) = 9999 ∨ (if neg then -(n : Int) else n) = -1000))) := by
      intro h
      obtain ⟨e, he⟩ := key h
      have hp' : parseString ((if neg then '-' :: pad4 n else pad4 n) ++ '-' :: pad2 z.code) = .ok r := hp
      rw [he] at hp'
      cases hp'
    exact .season neg n hn z (by unfold SeasonYear; omega) (fun hz => by constructor <;> (intro h; exact this (Or.inr ⟨hz, by omega⟩)))

theorem acc_seasonText {s : Str} (h : Lang (Rx.seasonText 3) s) {r : EDTFDate} (hp : parseString s = .ok r) : Accepted s := by
  obtain ⟨w, v, rfl, hw, hv⟩ := lang_cat.1 h
  obtain ⟨z, hz⟩ := lang_seasonWord_iff.1 (lang_grp.1 hw)
  obtain ⟨t1, v, rfl, h1, hv⟩ := lang_cat.1 hv
  obtain ⟨cs, v', rfl, hc, hv'⟩ := lang_cat.1 hv
  obtain ⟨c, rfl, hc⟩ := hc
  have := fold_comma hc
  subst this
  obtain ⟨t2, v2, rfl, h2, hv2⟩ := lang_cat.1 hv'
  obtain ⟨n, hn, rfl⟩ := lang_four.1 (lang_grp.1 hv2)
  have h1 := blank_iff.2 (lang_blanks.1 h1)
  have h2 := blank_iff.2 (lang_blanks.1 h2)
  refine .seasonName z w t1 t2 n hz h1 h2 hn (fun hz' h => ?_)
  subst hz' h
  have hp' : parseString (w ++ (t1 ++ ',' :: (t2 ++ pad4 9999))) = .ok r := hp
  rw [C18_text_last hz h1 h2] at hp'
  cases hp'

/-- A year and a month with something after it, in Level 1. -/
theorem acc_prefix {neg : Bool} {n m : Nat} (hn : n < 10000) (h1 : 1 ≤ m) (h2 : m ≤ 12) {rest : Str}
    (k0 : L0.isLevel0 (yearStr neg n ++ '-' :: (pad2 m ++ rest)) = false)
    (k1 : L1.isLevel1 (yearStr neg n ++ '-' :: (pad2 m ++ rest)) = true) :
    (∃ r, parseString (yearStr neg n ++ '-' :: (pad2 m ++ rest)) = .ok r) ↔ SeasonYear (if neg then -(n : Int) else n) := by
  have ha : (if neg then -(n : Int) else n).natAbs < 10000 := by split <;> omega
  constructor
  · rintro ⟨r, hp⟩
    apply Classical.byContradiction
    intro hy
    unfold SeasonYear at hy
    obtain ⟨t, ht⟩ := parse_prefix_err hn (Or.inl ⟨h1, h2⟩) k0 k1 (numSpan_month h1 h2) (Or.inl (by omega)) ha h1 h2 h1 h2
    rw [ht] at hp
    cases hp
  · intro hy
    exact ⟨_, parse_prefix_ok dayCount_unixDay hn (Or.inl ⟨h1, h2⟩) k0 k1 (numSpan_month h1 h2) ⟨hy, ha⟩ ⟨hy, ha⟩ h1 h2 h1 h2⟩

end EDTF
