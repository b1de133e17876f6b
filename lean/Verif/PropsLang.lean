/- C54: the exact set of strings that are accepted. -/
import Verif.LemmasAcc2
import Verif.LemmasAcc3
import Verif.LemmasAcc4
namespace EDTF
open Spec

/-! ### Only the strings of the language -/

theorem acc_level2 {s : Str} (h0 : L0.isLevel0 s = false) (h1 : L1.isLevel1 s = false) (h2 : L2.isLevel2 s = true) {r : EDTFDate}
    (hp : parseString s = .ok r) : Accepted s := by
  have hp' := hp
  rw [parse_level2 h0 h1 h2] at hp'
  unfold L2.parseString at hp'
  by_cases a1 : L2.isExponentialYear s = true
  · exact acc_exponential a1 hp
  rw [if_neg a1] at hp'
  by_cases a2 : L2.isSignificantDigits s = true
  · rw [if_pos a2] at hp'; exact acc_significant a2 hp'
  rw [if_neg a2] at hp'
  by_cases a3 : L2.isSubYearGrouping s = true
  · exact acc_subYear h0 h1 a3 hp
  rw [if_neg a3] at hp'
  by_cases a4 : L2.isSetRepresentation s = true
  · rw [if_pos a4] at hp'; exact acc_set a4 hp'
  rw [if_neg a4] at hp'
  by_cases a5 : L2.isGroupQualification s = true
  · rw [if_pos a5] at hp'; exact acc_group a5 hp'
  rw [if_neg a5] at hp'
  by_cases a6 : L2.isIndividualQualification s = true
  · rw [if_pos a6] at hp'; exact acc_individual a6 hp'
  rw [if_neg a6] at hp'
  by_cases a7 : L2.isUnspecifiedDigit s = true
  · rw [if_pos a7] at hp'; exact acc_unspecifiedDigit a7 hp'
  rw [if_neg a7] at hp'
  by_cases a8 : L2.isInterval s = true
  · exact acc_interval2 a8 hp
  rw [if_neg a8] at hp'
  cases hp'

theorem acc_of_parse {s : Str} {r : EDTFDate} (hp : parseString s = .ok r) : Accepted s := by
  by_cases h0 : L0.isLevel0 s = true
  · exact acc_level0 h0 hp
  by_cases h1 : L1.isLevel1 s = true
  · exact acc_level1 (by simpa using h0) h1 hp
  by_cases h2 : L2.isLevel2 s = true
  · exact acc_level2 (by simpa using h0) (by simpa using h1) h2 hp
  unfold parseString at hp
  rw [if_neg h0, if_neg h1, if_neg h2] at hp
  by_cases h3 : s = OPEN
  · rw [h3]; exact .opened
  rw [if_neg h3] at hp
  by_cases h4 : s = UNKNOWN
  · rw [h4]; exact .unknown
  rw [if_neg h4] at hp
  cases hp

/-! ### All the strings of the language -/

theorem month_fold : ∀ m, m < 13 → 1 ≤ m → (Rx.anch Rx.monthX.ci).matchString (pad2 m) = true := by decide +kernel

theorem lang_looseDate {n m : Nat} (h1 : 1 ≤ m) (h2 : m ≤ 12) {a b : Char} (h : LooseDay a b) :
    Lang (Rx.unspecifiedDigits 1).ci (pad4 n ++ '-' :: (pad2 m ++ ['-', a, b])) := by
  have hd : ∀ w : Str, Lang Rx.digX.ci w ↔ ∃ c, w = [c] ∧ clsHas true [('0', '9'), ('X', 'X')] c = true := fun w => Iff.rfl
  have hk : ∀ k, k < 10 → clsHas true [('0', '9'), ('X', 'X')] (dig k) = true := by decide
  have ld : Lang (Rx.lit '-').ci ['-'] := (lang_ci_noLetter (by decide) _).2 (lang_lit.2 rfl)
  have hm : Lang Rx.monthX.ci (pad2 m) := by
    have := month_fold m (by omega) h1
    rw [matchString_anch _ (by decide)] at this
    exact this
  refine lang_cat.2 ⟨pad4 n, _, rfl, lang_grp.2 ((lang_rep4 hd).2 ⟨_, _, _, _, rfl, hk _ ?_, hk _ ?_, hk _ ?_, hk _ ?_⟩), lang_opt.2 (Or.inr ?_)⟩
  · exact Nat.mod_lt _ (by decide)
  · exact Nat.mod_lt _ (by decide)
  · exact Nat.mod_lt _ (by decide)
  · exact Nat.mod_lt _ (by decide)
  · exact lang_cat.2 ⟨['-'], _, rfl, ld, lang_cat.2 ⟨pad2 m, _, rfl, hm, lang_opt.2 (Or.inr (lang_cat.2 ⟨['-'], _, rfl, ld, lang_loose_of h⟩))⟩⟩

theorem loose_X {a b : Char} (h : LooseDay a b) : ∃ c, (c = 'X' ∨ c = 'x') ∧ (c = a ∨ c = b) := by
  have hx : ∀ {c : Char}, c ∈ c! "Xx" → c = 'X' ∨ c = 'x' := by
    intro c h
    have : c ∈ ['X', 'x'] := h
    simpa using this
  rcases h.2 with h | h
  · exact ⟨a, hx h, Or.inl rfl⟩
  · exact ⟨b, hx h, Or.inr rfl⟩

/-- A year and month with something allowed after them is taken as a season. -/
theorem month_levels {neg : Bool} {n m : Nat} (hn : n < 10000) (h1 : 1 ≤ m) (h2 : m ≤ 12) {t : Str} (ht : AfterMonth neg t) :
    L0.isLevel0 (yearStr neg n ++ '-' :: (pad2 m ++ t)) = false ∧ L1.isLevel1 (yearStr neg n ++ '-' :: (pad2 m ++ t)) = true := by
  have go : L0.isLevel0 (yearStr neg n ++ '-' :: (pad2 m ++ t)) = false → L1.isLevel1 (yearStr neg n ++ '-' :: (pad2 m ++ t)) = true →
      L0.isLevel0 (yearStr neg n ++ '-' :: (pad2 m ++ t)) = false ∧ L1.isLevel1 (yearStr neg n ++ '-' :: (pad2 m ++ t)) = true := And.intro
  have q0 : ∀ {q : Char} {w : Str}, q ∈ c! "?~%" → L0.isLevel0 (w ++ [q]) = false := by
    intro q w hq
    have hm : q ∈ w ++ [q] := by simp
    rcases q_mem.1 hq with rfl | rfl | rfl <;> exact not_level0_char hm (by decide)
  have q1 : ∀ {x : Date0} {q : Char}, x.year < 10000 → Date0.shapeOk x → q ∈ c! "?~%" → L1.isLevel1 (x.text ++ [q]) = true := by
    intro x q a b hq
    exact isLevel1_iff.2 (Or.inr (Or.inr (Or.inr (Or.inl (lang_cat.2 ⟨_, _, rfl, lang_date.2 ⟨x, a, b, rfl⟩, lang_qualAlt.2 ⟨q, hq, rfl⟩⟩)))))
  have e0 : ∀ {x : Date0} {t : Str}, (t = [] ∨ t = c! "..") → L0.isLevel0 (x.text ++ '/' :: t) = false := by
    intro x t ht
    rcases ht with rfl | rfl
    · exact side_not_level0 (l := .date x) (r := .unknown) (Or.inr (Or.inr rfl))
    · exact side_not_level0 (l := .date x) (r := .opened) (Or.inr (Or.inl rfl))
  have e1 : ∀ {x : Date0} {t : Str}, x.year < 10000 → Date0.shapeOk x → (t = [] ∨ t = c! "..") → L1.isLevel1 (x.text ++ '/' :: t) = true := by
    intro x t a b ht
    exact isLevel1_iff.2 (Or.inr (Or.inr (Or.inr (Or.inr (Or.inr (Or.inr (Or.inl
      (lang_cat.2 ⟨_, _, rfl, lang_date.2 ⟨x, a, b, rfl⟩, lang_cat.2 ⟨['/'], t, rfl, lang_lit.2 rfl, lang_optDots.2 ht⟩⟩))))))))
  cases ht with
  | qualifier _ q hq =>
    have e : yearStr neg n ++ '-' :: (pad2 m ++ [q]) = (⟨neg, n, .month m⟩ : Date0).text ++ [q] := by rw [month_text]
    rw [e] at go ⊢
    exact go (q0 hq) (q1 (x := ⟨neg, n, .month m⟩) hn ⟨h1, h2⟩ hq)
  | dayQualifier _ d d1 d2 q hq =>
    have e : yearStr neg n ++ '-' :: (pad2 m ++ '-' :: (pad2 d ++ [q])) = (⟨neg, n, .day m d⟩ : Date0).text ++ [q] := by rw [day_text]
    rw [e] at go ⊢
    exact go (q0 hq) (q1 (x := ⟨neg, n, .day m d⟩) hn ⟨h1, h2, d1, d2⟩ hq)
  | ended _ t ht =>
    have e : yearStr neg n ++ '-' :: (pad2 m ++ '/' :: t) = (⟨neg, n, .month m⟩ : Date0).text ++ '/' :: t := by rw [month_text]
    rw [e] at go ⊢
    exact go (e0 ht) (e1 (x := ⟨neg, n, .month m⟩) hn ⟨h1, h2⟩ ht)
  | dayEnded _ d d1 d2 t ht =>
    have e : yearStr neg n ++ '-' :: (pad2 m ++ '-' :: (pad2 d ++ '/' :: t)) = (⟨neg, n, .day m d⟩ : Date0).text ++ '/' :: t := by rw [day_text]
    rw [e] at go ⊢
    exact go (e0 ht) (e1 (x := ⟨neg, n, .day m d⟩) hn ⟨h1, h2, d1, d2⟩ ht)
  | loose a b h =>
    refine go ?_ ?_
    · obtain ⟨c, hc, hab⟩ := loose_X h
      have hm : c ∈ yearStr false n ++ '-' :: (pad2 m ++ ['-', a, b]) := by
        rcases hab with rfl | rfl <;> simp
      rcases hc with rfl | rfl <;> exact not_level0_char hm (by decide)
    · exact isLevel1_iff.2 (Or.inr (Or.inr (Or.inr (Or.inr (Or.inl (lang_looseDate h1 h2 h))))))

theorem month_ok {neg : Bool} {n m : Nat} (hn : n < 10000) (h1 : 1 ≤ m) (h2 : m ≤ 12) (hy : SeasonYear (if neg then -(n : Int) else n))
    {t : Str} (ht : AfterMonth neg t) : ∃ r, parseString (yearStr neg n ++ '-' :: (pad2 m ++ t)) = .ok r :=
  (acc_prefix hn h1 h2 (month_levels hn h1 h2 ht).1 (month_levels hn h1 h2 ht).2).2 hy

theorem parse_of_acc {s : Str} (h : Accepted s) : ∃ r, parseString s = .ok r := by
  have hf := dayCount_unixDay
  cases h with
  | unknown => exact ⟨_, rfl⟩
  | opened => exact ⟨_, rfl⟩
  | date x h => exact acc_date_of h
  | time neg y m d hh mi ss z hy V k1 k2 k3 hz => exact acc_clock_of hy V k1 k2 k3 hz
  | interval a b ha hb ra rb => exact (iv_readable ⟨ha.1, ra⟩ ⟨hb.1, rb⟩).2 ⟨ha, hb⟩
  | startless t ht x h =>
    rcases ht with rfl | rfl
    · exact ⟨_, C17_start hf (l := .unknown) (Or.inr rfl) h⟩
    · exact ⟨_, C17_start hf (l := .opened) (Or.inl rfl) h⟩
  | endless neg n h t ht =>
    have e : signed neg (pad4 n) = (⟨neg, n, .none⟩ : Date0).text := (date0_year neg n).symm
    have hx : (⟨neg, n, .none⟩ : Date0).ok := ⟨h, trivial⟩
    rw [e]
    rcases ht with rfl | rfl
    · exact ⟨_, C17_end_year_partial hf (r := .unknown) (Or.inr rfl) hx rfl⟩
    · exact ⟨_, C17_end_year_partial hf (r := .opened) (Or.inl rfl) hx rfl⟩
  | qualifiedYear neg n h q hq =>
    have e : signed neg (pad4 n) = (⟨neg, n, .none⟩ : Date0).text := (date0_year neg n).symm
    rw [e]
    exact ⟨_, C16_year_partial hf neg h (q_mem.1 hq)⟩
  | single e h hn hq hx => exact single_ok h hn hq hx
  | month neg n m hn h1 h2 hy t ht => exact month_ok hn h1 h2 hy ht
  | season neg n hn z hy hz => exact ⟨_, (C18_numeric_partial hf neg hn z rfl).1 hy hz⟩
  | seasonName z w t1 t2 n hw h1 h2 hn hz => exact ⟨_, C18_text hf z hw h1 h2 hn (fun h => by have := hz h; omega)⟩
  | letter neg n h =>
    have e : signed neg (pad4 n) = (⟨neg, n, .none⟩ : Date0).text := (date0_year neg n).symm
    rw [e]
    exact ⟨_, C22_four hf neg h⟩
  | exponential yc ec hy he neg ms es hm hes v hv h => exact (exp_accept (mem_Yy.1 hy) (mem_Ee.1 he) neg hm hes).2 ⟨v, hv, h⟩
  | significant t v h ds hd hk => exact sig_accept h hd hk
  | grouping n hn g hg =>
    obtain ⟨r, h, -⟩ := C19_months_partial hf hn g hg
    exact ⟨r, h⟩
  | set o c hb cs hc hm => exact set_ok hb hc hm

/-! ### C54 -/

/-- C54: `ParseString` succeeds on exactly the strings of `Spec.Accepted`. -/
theorem C54_language (s : Str) : (∃ d, parseString s = .ok d) ↔ Accepted s :=
  ⟨fun ⟨_, h⟩ => acc_of_parse h, parse_of_acc⟩

/- Beside C54: an odd string of the language, found with the specification
alone, and so read by the parser; and strings outside the language because
the parser refuses them. -/
example : ∃ d, parseString (c! "-1044-03-15?") = .ok d :=
  (C54_language _).2 (.month true 1044 3 (by decide) (by decide) (by decide) (by unfold SeasonYear; decide) _
    (.dayQualifier true 15 (by decide) (by decide) '?' (by decide)))
example : ∃ d, parseString (c! "2004-06-1x") = .ok d :=
  (C54_language _).2 (.month false 2004 6 (by decide) (by decide) (by decide) (by unfold SeasonYear; decide) _
    (.loose '1' 'x' (by unfold LooseDay; decide)))
example : Accepted (c! "{1960,1961-12..1963}") := (C54_language _).1 ⟨_, rfl⟩
example : ¬ Accepted (c! "2004-13") := by
  rw [← C54_language]; rintro ⟨d, h⟩; cases h
example : ¬ Accepted (c! "2004-02-30") := by
  rw [← C54_language]; rintro ⟨d, h⟩; cases h

end EDTF
