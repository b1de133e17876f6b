/-
Property C81: what the errors of the comparisons, of the Unix ranges and of the
replacement of deprecated strings say.
-/
import Verif.MessageCmp
import Verif.SpecMessageCmp
import Verif.PropsMessage
import Verif.PropsTool
import Verif.PropsOrder
namespace EDTF
open Spec Told
variable {f : Int → Nat → Nat → Int}

/-! ### The twins -/

theorem forget_format {α : Type} (b : Str) (x : Told α) : (x.format b).forget = formatErr x.forget := by cases x <;> rfl

theorem forget_wrap {α : Type} (b : Str) (x : Told α) : (x.wrap b).forget = wrapErr x.forget := by cases x <;> rfl

theorem afterM_forget (d u : EDTFDate) : (d.afterM u).forget = d.after u := by
  unfold EDTFDate.afterM EDTFDate.after
  simp only [forget_ite, forget_bind, forget_wrap, forget_lift]
  rfl

theorem beforeM_forget (d u : EDTFDate) : (d.beforeM u).forget = d.before u := by
  unfold EDTFDate.beforeM EDTFDate.before
  simp only [forget_ite, forget_bind, forget_wrap, forget_lift]
  rfl

theorem isAfterM_forget (s t : Str) : (isAfterM s t).forget = isAfter s t := by
  unfold isAfterM isAfter
  simp only [forget_bind, forget_format, parseStringM_forget, afterM_forget]

theorem isBeforeM_forget (s t : Str) : (isBeforeM s t).forget = isBefore s t := by
  unfold isBeforeM isBefore
  simp only [forget_bind, forget_format, parseStringM_forget, beforeM_forget]

theorem isBetweenM_forget (s i c : Str) : (isBetweenM s i c).forget = isBetween s i c := by
  unfold isBetweenM isBetween
  simp only [forget_ite, forget_bind, forget_wrap, isAfterM_forget, isBeforeM_forget]
  rfl

theorem deriveRangesM_forget (s : Str) : (Unix.deriveRangesM s).forget = Unix.deriveRanges s := by
  unfold Unix.deriveRangesM Unix.deriveRanges
  rw [forget_ite]
  simp only [forget_bind, forget_wrap, forget_lift, parseStringM_forget]
  congr 1
  congr 1; funext d
  congr 1; funext st
  congr 1; funext en
  cases st.lower <;> cases st.upper <;> cases en.lower <;> cases en.upper <;> try rfl
  rename_i a b c z
  dsimp only
  cases a.timestamp <;> cases b.timestamp <;> cases c.timestamp <;> cases z.timestamp <;> rfl

/-- C81: with the texts dropped, the functions with texts are the functions. -/
theorem C81_forget (s t u : Str) : (isAfterM s t).forget = isAfter s t ∧ (isBeforeM s t).forget = isBefore s t ∧
    (isBetweenM s t u).forget = isBetween s t u ∧ (Unix.deriveRangesM s).forget = Unix.deriveRanges s ∧
    (replaceDeprecatedM s).forget = replaceDeprecated s := by
  refine ⟨isAfterM_forget s t, isBeforeM_forget s t, isBetweenM_forget s t u, deriveRangesM_forget s, ?_⟩
  unfold replaceDeprecatedM replaceDeprecated
  cases deprecatedTable.lookup s <;> rfl

example : isAfterM (c! "2010") (c! "x") = .says (c! "Failed to parse 'x', Unrecognized EDTF string 'x' (Invalid or unsupported EDTF string)") := by
  decide +kernel

/-! ### Texts -/

theorem noLower_iff {s : Str} {d : EDTFDate} (h : parseString s = .ok d) {sl su el eu : Option Int} (hb : Bounds d sl su el eu) :
    NoLower s ↔ sl = none := by
  rw [← C68_lower dayCount_unixDay]
  constructor
  · rintro ⟨d', su', el', eu', h', hb'⟩
    rw [h] at h'
    cases h'
    exact (bounds_unique hb hb').1
  · rintro rfl
    exact ⟨_, _, _, _, h, hb⟩

theorem noUpper_iff {s : Str} {d : EDTFDate} (h : parseString s = .ok d) {sl su el eu : Option Int} (hb : Bounds d sl su el eu) :
    NoUpper s ↔ eu = none := by
  rw [← C68_upper dayCount_unixDay]
  constructor
  · rintro ⟨d', sl', su', el', h', hb'⟩
    rw [h] at h'
    cases h'
    exact (bounds_unique hb hb').2.2.2
  · rintro rfl
    exact ⟨_, _, _, _, h, hb⟩

theorem noLower_ok {s : Str} (h : NoLower s) : Accepted s := by
  obtain ⟨d, _, _, _, hd, _⟩ := (C68_lower dayCount_unixDay s).2 h
  exact (C54_language s).1 ⟨d, hd⟩

theorem noUpper_ok {s : Str} (h : NoUpper s) : Accepted s := by
  obtain ⟨d, _, _, _, hd, _⟩ := (C68_upper dayCount_unixDay s).2 h
  exact (C54_language s).1 ⟨d, hd⟩

/-- Comparing two bounds, with the texts for a missing one. -/
def compareM (m t : Str) (x y : Str) (p q : Option Int) (r : Int → Int → Bool) : Told Bool :=
  match q, p with
  | none, _ => .fault ⟨noBound, boundText t (c! "inception") y⟩
  | some _, none => .fault ⟨noBound, boundText m (c! "cessation") x⟩
  | some q, some p => .ok (r p q)

theorem afterM_bounds {s t : Str} {x y : EDTFDate} (px : parseString s = .ok x) (py : parseString t = .ok y) {xl xa xb xu yl ya yb yu : Option Int}
    (bx : Bounds x xl xa xb xu) (bz : Bounds y yl ya yb yu) :
    ∃ r, x.afterM y = if s = c! ".." then .ok false else compareM (c! "lower") (c! "upper") s t xl yu r := by
  unfold EDTFDate.afterM
  rw [lower_bounds bx, upper_bounds bz]
  by_cases ho : s = c! ".."
  · exact ⟨fun _ _ => true, by rw [if_pos ho, if_pos ((open_iff px).2 ho)]⟩
  rw [(parse_inv px).1, (parse_inv py).1, ← (parse_inv px).1, if_neg (by rw [open_iff px]; exact ho), (parse_inv px).1]
  cases yu with
  | none => exact ⟨fun _ _ => true, by rw [if_neg ho]; simp [compareM, boundText, noBound, readBound, lift, wrap, NotSet, NotImplemented, Told.bind, Bind.bind, Err.text, quotedWith]⟩
  | some q =>
    cases xl with
    | none => exact ⟨fun _ _ => true, by rw [if_neg ho]; simp [compareM, boundText, noBound, readBound, lift, wrap, NotSet, NotImplemented, Told.bind, Bind.bind, Err.text, quotedWith]⟩
    | some p =>
      refine ⟨fun p q => decide ¬ goSeconds q > goSeconds p, ?_⟩
      rw [if_neg ho]
      simp only [compareM, readBound, lift, wrap, Bind.bind, Told.bind]
      split <;> rename_i h <;> simp [h]

theorem beforeM_bounds {s t : Str} {x y : EDTFDate} (px : parseString s = .ok x) (py : parseString t = .ok y) {xl xa xb xu yl ya yb yu : Option Int}
    (bx : Bounds x xl xa xb xu) (bz : Bounds y yl ya yb yu) :
    ∃ r, x.beforeM y = if s = c! ".." then .ok false else compareM (c! "upper") (c! "lower") s t xu yl r := by
  unfold EDTFDate.beforeM
  rw [upper_bounds bx, lower_bounds bz]
  by_cases ho : s = c! ".."
  · exact ⟨fun _ _ => true, by rw [if_pos ho, if_pos ((open_iff px).2 ho)]⟩
  rw [(parse_inv px).1, (parse_inv py).1, ← (parse_inv px).1, if_neg (by rw [open_iff px]; exact ho), (parse_inv px).1]
  cases yl with
  | none => exact ⟨fun _ _ => true, by rw [if_neg ho]; simp [compareM, boundText, noBound, readBound, lift, wrap, NotSet, NotImplemented, Told.bind, Bind.bind, Err.text, quotedWith]⟩
  | some q =>
    cases xu with
    | none => exact ⟨fun _ _ => true, by rw [if_neg ho]; simp [compareM, boundText, noBound, readBound, lift, wrap, NotSet, NotImplemented, Told.bind, Bind.bind, Err.text, quotedWith]⟩
    | some p =>
      refine ⟨fun p q => decide ¬ goSeconds q < goSeconds p, ?_⟩
      rw [if_neg ho]
      simp only [compareM, readBound, lift, wrap, Bind.bind, Told.bind]
      split <;> rename_i h <;> simp [h]

/-- Both comparisons at once. -/
theorem comparedM (op : EDTFDate → EDTFDate → Told Bool) (m t : Str) (mine theirs : Option Int × Option Int → Option Int) {noMine noTheirs : Str → Prop}
    (hop : ∀ {s u : Str} {x y : EDTFDate} (_ : parseString s = .ok x) (_ : parseString u = .ok y) {xl xa xb xu yl ya yb yu : Option Int}
      (_ : Bounds x xl xa xb xu) (_ : Bounds y yl ya yb yu),
      ∃ r, op x y = if s = c! ".." then .ok false else compareM m t s u (mine (xl, xu)) (theirs (yl, yu)) r)
    (hm : ∀ {s : Str} {d : EDTFDate} (_ : parseString s = .ok d) {sl su el eu : Option Int} (_ : Bounds d sl su el eu), noMine s ↔ mine (sl, eu) = none)
    (ht : ∀ {s : Str} {d : EDTFDate} (_ : parseString s = .ok d) {sl su el eu : Option Int} (_ : Bounds d sl su el eu), noTheirs s ↔ theirs (sl, eu) = none)
    (am : ∀ {s : Str}, noMine s → Accepted s) (at' : ∀ {s : Str}, noTheirs s → Accepted s) (s u w : Str) :
    (∃ e, ((parseStringM s).format (c! "Failed to parse '" ++ s ++ c! "', ")).bind (fun a =>
      ((parseStringM u).format (c! "Failed to parse '" ++ u ++ c! "', ")).bind (fun b => op a b)) = .fault e ∧ e.text = w) ↔
      ComparedText m t noMine noTheirs s u w := by
  have wrong : ∀ v why : Str, (c! "Failed to parse '" ++ v ++ c! "', ") ++ why = wrongText v why := fun _ _ => rfl
  have key : ∀ {x y : EDTFDate}, parseString s = .ok x → parseString u = .ok y → ((∃ e, op x y = .fault e ∧ e.text = w) ↔
      (s ≠ c! ".." ∧ noTheirs u ∧ w = boundText t (c! "inception") u) ∨
      (s ≠ c! ".." ∧ noMine s ∧ ¬ noTheirs u ∧ w = boundText m (c! "cessation") s)) := by
    intro x y px py
    obtain ⟨xl, xa, xb, xu, bx⟩ := bounds_of dayCount_unixDay px
    obtain ⟨yl, ya, yb, yu, bz⟩ := bounds_of dayCount_unixDay py
    obtain ⟨r, hr⟩ := hop px py bx bz
    rw [hr, hm px bx, ht py bz]
    by_cases ho : s = c! ".."
    · rw [if_pos ho]
      exact ⟨fun ⟨_, e, _⟩ => (by cases e), fun h => (by rcases h with ⟨h, -⟩ | ⟨h, -⟩ <;> exact absurd ho h)⟩
    rw [if_neg ho]
    cases h1 : theirs (yl, yu) with
    | none =>
      refine ⟨fun ⟨e, k, hw⟩ => .inl ⟨ho, rfl, ?_⟩, fun h => ?_⟩
      · cases k; exact hw.symm
      · rcases h with ⟨-, -, rfl⟩ | ⟨-, -, h, -⟩
        · exact ⟨_, rfl, rfl⟩
        · exact absurd rfl h
    | some q =>
      cases h2 : mine (xl, xu) with
      | none =>
        refine ⟨fun ⟨e, k, hw⟩ => .inr ⟨ho, rfl, by simp, ?_⟩, fun h => ?_⟩
        · cases k; exact hw.symm
        · rcases h with ⟨-, h, -⟩ | ⟨-, -, -, rfl⟩
          · cases h
          · exact ⟨_, rfl, rfl⟩
      | some p =>
        refine ⟨fun ⟨e, k, hw⟩ => (by cases k), fun h => ?_⟩
        rcases h with ⟨-, h, -⟩ | ⟨-, h, -⟩ <;> cases h
  constructor
  · rintro ⟨e, h, rfl⟩
    rcases parseStringM_cases s with ⟨x, k, px⟩ | ⟨g, k, -⟩ | ⟨k, -⟩
    · have as : Accepted s := (C54_language s).1 ⟨x, px⟩
      rcases parseStringM_cases u with ⟨y, l, py⟩ | ⟨g, l, -⟩ | ⟨l, -⟩
      · rw [k, l] at h
        rcases (key px py).1 ⟨e, h, rfl⟩ with ⟨h1, h2, h3⟩ | ⟨h1, h2, h3, h4⟩
        · rw [h3]; exact .theirs as h1 h2
        · rw [h4]; exact .mine h1 h2 ((C54_language u).1 ⟨y, py⟩) h3
      · rw [k, l] at h
        cases h
        show ComparedText _ _ _ _ _ _ ((c! "Failed to parse '" ++ u ++ c! "', ") ++ g.text)
        rw [wrong]
        exact .right as _ ((C79_text u _).1 ⟨g, l, rfl⟩)
      · rw [k, l] at h; cases h
    · rw [k] at h
      cases h
      show ComparedText _ _ _ _ _ _ ((c! "Failed to parse '" ++ s ++ c! "', ") ++ g.text)
      rw [wrong]
      exact .left _ ((C79_text s _).1 ⟨g, k, rfl⟩)
    · rw [k] at h; cases h
  · intro h
    cases h with
    | left w h =>
      obtain ⟨g, k, rfl⟩ := (C79_text s w).2 h
      rw [k]
      exact ⟨_, rfl, rfl⟩
    | right hs w h =>
      obtain ⟨x, px⟩ := (C54_language s).2 hs
      obtain ⟨g, k, rfl⟩ := (C79_text u w).2 h
      rw [told_ok px, k]
      exact ⟨_, rfl, rfl⟩
    | theirs hs ho h =>
      obtain ⟨x, px⟩ := (C54_language s).2 hs
      obtain ⟨y, py⟩ := (C54_language u).2 (at' h)
      rw [told_ok px, told_ok py]
      exact (key px py).2 (.inl ⟨ho, h, rfl⟩)
    | mine ho h hu h2 =>
      obtain ⟨x, px⟩ := (C54_language s).2 (am h)
      obtain ⟨y, py⟩ := (C54_language u).2 hu
      rw [told_ok px, told_ok py]
      exact (key px py).2 (.inr ⟨ho, h, h2, rfl⟩)

/-- C81: what IsAfter says, for every pair of strings. -/
theorem C81_after (s t w : Str) : (∃ e, isAfterM s t = .fault e ∧ e.text = w) ↔ AfterText s t w :=
  comparedM EDTFDate.afterM (c! "lower") (c! "upper") Prod.fst Prod.snd (fun px py _ _ _ _ _ _ _ _ bx bz => afterM_bounds px py bx bz)
    (fun px _ _ _ _ hb => noLower_iff px hb) (fun px _ _ _ _ hb => noUpper_iff px hb) noLower_ok noUpper_ok s t w

/-- C81: what IsBefore says, for every pair of strings. -/
theorem C81_before (s t w : Str) : (∃ e, isBeforeM s t = .fault e ∧ e.text = w) ↔ BeforeText s t w :=
  comparedM EDTFDate.beforeM (c! "upper") (c! "lower") Prod.snd Prod.fst (fun px py _ _ _ _ _ _ _ _ bx bz => beforeM_bounds px py bx bz)
    (fun px _ _ _ _ hb => noUpper_iff px hb) (fun px _ _ _ _ hb => noLower_iff px hb) noUpper_ok noLower_ok s t w

/-- A date without an end: the message calls it the inception, although it is the date compared with. -/
example : AfterText (c! "2010") (c! "2004/..") (c! "Failed to derive upper time for inception date (2004/..), Not implemented '' ()") :=
  (C81_after _ _ _).1 ⟨_, rfl, by decide +kernel⟩
/-- Both are without the bound that is needed: the second is the one that is named. -/
example : BeforeText (c! "2004/..") (c! "../2010") (c! "Failed to derive lower time for inception date (../2010), Not implemented '' ()") :=
  (C81_before _ _ _).1 ⟨_, rfl, by decide +kernel⟩
example : BeforeText (c! "1985-04-31") (c! "x") (c! "Failed to parse '1985-04-31', Invalid days for month") :=
  (C81_before _ _ _).1 ⟨_, rfl, by decide +kernel⟩

/-- C81: what IsBetween says, for all strings. -/
theorem C81_between (hf : DayCount f) (s i c w : Str) : (∃ e, isBetweenM s i c = .fault e ∧ e.text = w) ↔ BetweenText f s i c w := by
  have hb := isBeforeM_forget s i
  have ha := isAfterM_forget s c
  constructor
  · rintro ⟨e, h, rfl⟩
    unfold isBetweenM at h
    cases k : isBeforeM s i with
    | fault g =>
      rw [k] at h
      cases h
      exact .before _ ((C81_before s i _).1 ⟨g, k, rfl⟩)
    | panic => rw [k] at h; cases h
    | ok b =>
      rw [k] at h hb
      cases b with
      | true => cases h
      | false =>
        have hb' := (C67_before hf s i _).1 hb.symm
        by_cases hc : c = c! ".."
        · subst hc; cases h
        have h' : ((isAfterM s c).wrap (c! "Failed to determine if date is after cessation date, ")).bind
            (fun after => if after then .ok false else .ok true) = Told.fault e := by
          have : (if c ≠ OPEN then (((isAfterM s c).wrap (c! "Failed to determine if date is after cessation date, ")).bind
            (fun after => if after then .ok false else .ok true)) else .ok true) = Told.fault e := h
          rwa [if_pos (show c ≠ OPEN from hc)] at this
        cases l : isAfterM s c with
        | fault g =>
          rw [l] at h'
          cases h'
          exact .after hb' hc _ ((C81_after s c _).1 ⟨g, l, rfl⟩)
        | panic => rw [l] at h'; cases h'
        | ok b => rw [l] at h'; cases b <;> cases h'
  · intro h
    cases h with
    | before w h =>
      obtain ⟨g, k, rfl⟩ := (C81_before s i w).2 h
      refine ⟨⟨.wrapped g.err, _⟩, ?_, rfl⟩
      unfold isBetweenM
      rw [k]
      rfl
    | after h hc w h2 =>
      obtain ⟨g, l, rfl⟩ := (C81_after s c w).2 h2
      rw [(C67_before hf s i _).2 h] at hb
      have k := forget_ok.1 hb
      refine ⟨⟨.wrapped g.err, _⟩, ?_, rfl⟩
      unfold isBetweenM
      rw [k]
      show (if c ≠ OPEN then (((isAfterM s c).wrap (c! "Failed to determine if date is after cessation date, ")).bind
            (fun after => if after then .ok false else .ok true)) else .ok true) = _
      rw [if_pos (show c ≠ OPEN from hc), l]
      rfl

/-- The message that comes out at the end of three functions. -/
example : BetweenText (fun y m d => unixDay y m d) (c! "2010") (c! "2004") (c! "2020/..")
    (c! "Failed to determine if date is after cessation date, Failed to derive upper time for inception date (2020/..), Not implemented '' ()") :=
  (C81_between dayCount_unixDay _ _ _ _).1 ⟨_, rfl, by decide +kernel⟩

/-- C81: what DeriveRanges says, for every string. -/
theorem C81_ranges (s w : Str) : (∃ e, Unix.deriveRangesM s = .fault e ∧ e.text = w) ↔ RangesText s w := by
  have hv : Unix.isValid s = true ↔ ¬ NoRange s := by
    unfold Unix.isValid NoRange isOpenStr isUnknownStr isUnspecifiedStr OPEN OPEN_2012 UNKNOWN UNKNOWN_2012 UNSPECIFIED UNSPECIFIED_2012
    simp only [Bool.or_eq_true, beq_iff_eq, List.mem_cons, List.not_mem_nil, or_false]
    split
    · rename_i h; rcases h with rfl | rfl <;> simp
    · split
      · rename_i h; rcases h with rfl | rfl <;> simp
      · simp_all
  constructor
  · rintro ⟨e, h, rfl⟩
    unfold Unix.deriveRangesM at h
    by_cases hn : NoRange s
    · rw [if_pos (by rw [Bool.not_eq_true', ← Bool.not_eq_true, hv]; simpa using hn)] at h
      cases h
    rw [if_neg (by rw [Bool.not_eq_true', ← Bool.not_eq_true, hv]; simpa using hn)] at h
    rcases parseStringM_cases s with ⟨x, k, px⟩ | ⟨g, k, -⟩ | ⟨k, -⟩
    · obtain ⟨sl, su, el, eu, bx⟩ := bounds_of dayCount_unixDay px
      obtain ⟨_, _, a, b, c, z, h1, h2, -⟩ := bx
      rw [k] at h
      simp only [wrap, Bind.bind, Told.bind, h1, h2, Res.deref_some, lift] at h
      split at h <;> cases h
    · rw [k] at h
      cases h
      exact .wrong hn _ ((C79_text s _).1 ⟨g, k, rfl⟩)
    · rw [k] at h; cases h
  · rintro ⟨hn, w, hw⟩
    obtain ⟨g, k, rfl⟩ := (C79_text s w).2 hw
    refine ⟨⟨.wrapped g.err, _⟩, ?_, rfl⟩
    unfold Unix.deriveRangesM
    rw [if_neg (by rw [Bool.not_eq_true', ← Bool.not_eq_true, hv]; simpa using hn), k]
    rfl

example : RangesText (c! "2004-02-30") (c! "Failed to parse '2004-02-30', Invalid days for month") := (C81_ranges _ _).1 ⟨_, rfl, by decide +kernel⟩

/-- C81: what ReplaceDeprecated says: the two strings that it knows. -/
theorem C81_deprecated (s w : Str) : (∃ e, replaceDeprecatedM s = .fault e ∧ e.text = w) ↔
    s ≠ c! "open" ∧ s ≠ c! "uuuu" ∧ w = c! "Unknown or unsupported EDTF string '" ++ s ++ c! "' : map[open:.. uuuu:]" := by
  unfold replaceDeprecatedM deprecatedTable OPEN_2012 UNSPECIFIED_2012
  by_cases h1 : s = c! "open"
  · subst h1
    exact ⟨fun ⟨_, h, _⟩ => (by cases h), fun h => absurd rfl h.1⟩
  by_cases h2 : s = c! "uuuu"
  · subst h2
    exact ⟨fun ⟨_, h, _⟩ => (by cases h), fun h => absurd rfl h.2.1⟩
  have e1 : (s == c! "open") = false := by simpa using h1
  have e2 : (s == c! "uuuu") = false := by simpa using h2
  have e : (c! "Unknown or unsupported EDTF string '" ++ s ++ c! "' : " ++ mapText [(c! "open", OPEN), (c! "uuuu", UNSPECIFIED)]) =
      c! "Unknown or unsupported EDTF string '" ++ s ++ c! "' : map[open:.. uuuu:]" := by
    rw [show mapText [(c! "open", OPEN), (c! "uuuu", UNSPECIFIED)] = c! "map[open:.. uuuu:]" by decide +kernel, List.append_assoc _ (c! "' : ")]
    rfl
  simp only [List.lookup, e1, e2]
  constructor
  · rintro ⟨_, h, rfl⟩
    cases h
    exact ⟨h1, h2, e⟩
  · rintro ⟨-, -, rfl⟩
    exact ⟨_, rfl, e⟩

example : ∃ e, replaceDeprecatedM (c! "unknown") = .fault e ∧ e.text = c! "Unknown or unsupported EDTF string 'unknown' : map[open:.. uuuu:]" :=
  (C81_deprecated _ _).2 ⟨by decide, by decide, rfl⟩

end EDTF
