/-
C77: what the texts of errors and records tell.
-/
import Verif.Text
import Verif.SpecText
import Verif.PropsYmd
import Verif.PropsFail
import Verif.PropsGeneral
namespace EDTF
open Spec

/-! ### Errors -/

theorem quotedWith_inj {b l l' e e' : Str} (hl : '(' ∉ l) (hl' : '(' ∉ l') (h : quotedWith b e l = quotedWith b e' l') : e = e' ∧ l = l' := by
  have r := congrArg List.reverse h
  simp only [quotedWith, List.reverse_append, List.reverse_cons, List.reverse_nil, List.nil_append, List.cons_append, List.append_assoc] at r
  injection r with _ r
  obtain ⟨e1, e2⟩ := cut_unique (c := '(') (by simpa using hl) (by simpa using hl') r
  refine ⟨?_, List.reverse_inj.1 e1⟩
  injection e2 with _ e2
  injection e2 with _ e2
  have e3 : e.reverse ++ (c! "' " ++ b.reverse) = e'.reverse ++ (c! "' " ++ b.reverse) := by simpa using e2
  exact List.reverse_inj.1 (List.append_cancel_right e3)

/-- C77: the text of an error tells its kind, label and string, when labels have no parenthesis. -/
theorem C77_error {e e' : Err} {t : Str} (h : e.text = some t) (h' : e'.text = some t)
    (hl : ∀ l, labelOf e = some l → '(' ∉ l) (hl' : ∀ l, labelOf e' = some l → '(' ∉ l) : e = e' := by
  have k := h.trans h'.symm
  cases e <;> cases e' <;> simp only [Err.text, Option.some.injEq, reduceCtorEq] at k h h'
  all_goals first
    | rfl
    | (obtain ⟨rfl, rfl⟩ := quotedWith_inj (hl _ rfl) (hl' _ rfl) k; rfl)
    | (exfalso; simp [quotedWith] at k)

example : (Err.unsupported (c! "year") (c! "12345")).text = some (c! "Unsupported EDTF string '12345' (year)") ∧
    ∀ l, labelOf (.unsupported (c! "year") (c! "12345")) = some l → '(' ∉ l := by
  refine ⟨by decide, ?_⟩
  intro l h
  cases h
  decide

/-- C77: the beginning of the text tells the kind. -/
theorem C77_kind {e : Err} {t : Str} (h : e.text = some t) :
    (isNotSet e = true ↔ c! "This" <+: t) ∧ (isNotImplemented e = true ↔ c! "Not implemented" <+: t) ∧
    (isInvalid e = true ↔ c! "Invalid" <+: t) ∧ (isUnsupported e = true ↔ c! "Unsupported" <+: t) ∧
    (isUnrecognized e = true ↔ c! "Unrecognized" <+: t) := by
  cases e <;> simp only [Err.text, Option.some.injEq, reduceCtorEq] at h
  all_goals subst h
  all_goals simp [isNotSet, isNotImplemented, isInvalid, isUnsupported, isUnrecognized, quotedWith, List.cons_prefix_cons]

theorem dateFails_label {t : Str} {e : Err} (h : DateFails t e) : e = .plain ∨ ∃ l ∈ parserLabels, labelOf e = some l := by
  cases h <;> first | exact .inl rfl | exact .inr ⟨_, by simp [parserLabels], rfl⟩

theorem expFails_label {neg : Bool} {ms es : List Nat} {t : Str} {e : Err} (h : ExpFails neg ms es t e) :
    e = .plain ∨ ∃ l ∈ parserLabels, labelOf e = some l := by
  cases h <;> first | exact .inl rfl | exact .inr ⟨_, by simp [parserLabels], rfl⟩

/-- C77: the labels of the errors of ParseString. -/
theorem C77_labels {s : Str} {e : Err} (h : parseString s = .err e) : e = .plain ∨ ∃ l ∈ parserLabels, labelOf e = some l := by
  cases (C62_error s e).1 h
  all_goals first
    | exact .inl rfl
    | exact .inr ⟨_, by simp [parserLabels], rfl⟩
    | (rename_i hd; exact dateFails_label hd)
    | (rename_i hd; exact expFails_label hd)
    | (rename_i hd _ _; exact expFails_label hd)

example : parseString (c! "Y12") = .err (.invalid (c! "date") (c! "12")) ∧ c! "date" ∈ parserLabels := by decide +kernel

/-- C77: the text of an error of ParseString tells the error. -/
theorem C77_parser {s s' : Str} {e e' : Err} {t : Str} (h : parseString s = .err e) (h' : parseString s' = .err e')
    (ht : e.text = some t) (ht' : e'.text = some t) : e = e' := by
  have key : ∀ {s : Str} {e : Err}, parseString s = .err e → ∀ l, labelOf e = some l → '(' ∉ l := by
    intro s e h l hl
    rcases C77_labels h with rfl | ⟨l', hm, k⟩
    · cases hl
    · rw [hl] at k; cases k
      revert hm l
      have : ∀ l ∈ parserLabels, '(' ∉ l := by decide
      exact fun l _ hm => this l hm
  exact C77_error ht ht' (key h) (key h')

/-- C77: the error for a property that is not set does not say so. -/
theorem C77_not_set : NotSet.text = some (c! "Not implemented '' ()") ∧ NotSet.text ≠ Err.text .notSet := by decide

/-! ### Records -/

/-- Texts that can be cut off from what follows. -/
def Pre {α : Type} (f : α → Str) : Prop := ∀ a b x y, f a ++ x = f b ++ y → a = b ∧ x = y

theorem itoa_chars (n : Int) : ∀ c ∈ itoa n, c = '-' ∨ isDig c = true := by
  intro c hc
  unfold itoa at hc
  split at hc
  · rcases List.mem_cons.1 hc with rfl | hc
    · exact .inl rfl
    · exact .inr (List.all_eq_true.1 (natDigits_all _) c hc)
  · exact .inr (List.all_eq_true.1 (natDigits_all _) c hc)

theorem itoa_not {c : Char} (h1 : c ≠ '-') (h2 : isDig c = false) (n : Int) : c ∉ itoa n := by
  intro h
  rcases itoa_chars n c h with k | k
  · exact h1 k
  · rw [h2] at k; cases k

theorem itoa_inj {m n : Int} (h : itoa m = itoa n) : m = n := by
  have head : ∀ k : Nat, ∀ t, natDigits k ≠ '-' :: t := by
    intro k t e
    have := natDigits_all k
    rw [e] at this
    cases this
  have val : ∀ a b : Nat, natDigits a = natDigits b → a = b := by
    intro a b e
    rw [← digitsVal_natDigits a, e, digitsVal_natDigits]
  unfold itoa at h
  split at h <;> split at h
  · injection h with _ h
    have := val _ _ h
    omega
  · exact absurd h.symm (head _ _)
  · exact absurd h (head _ _)
  · have := val _ _ h
    omega

theorem pre_itoa {c : Char} (h1 : c ≠ '-') (h2 : isDig c = false) {m n : Int} {x y : Str} (h : itoa m ++ c :: x = itoa n ++ c :: y) : m = n ∧ x = y := by
  obtain ⟨e1, e2⟩ := cut_unique (itoa_not h1 h2 m) (itoa_not h1 h2 n) h
  exact ⟨itoa_inj e1, e2⟩

theorem pre_ymd : Pre YMD.string := by
  rintro ⟨a, b, c⟩ ⟨a', b', c'⟩ x y h
  simp only [YMD.string, List.append_assoc, List.cons_append, List.nil_append, List.cons.injEq, true_and] at h
  obtain ⟨rfl, g1⟩ := pre_itoa (by decide) rfl h
  simp only [List.cons.injEq, true_and] at g1
  obtain ⟨rfl, g2⟩ := pre_itoa (by decide) rfl g1
  simp only [List.cons.injEq, true_and] at g2
  obtain ⟨rfl, g3⟩ := pre_itoa (by decide) rfl g2
  exact ⟨rfl, g3⟩

theorem pre_timestamp : Pre timestampString := by
  intro a b x y h
  simp only [timestampString, List.append_assoc, List.cons_append, List.nil_append, List.cons.injEq, true_and] at h
  exact pre_itoa (by decide) rfl h

theorem pre_nil {α : Type} {f : α → Str} (hf : Pre f) (h0 : ∀ a, ∃ c t, f a = c :: t ∧ c ≠ '<') : Pre (viaString f) := by
  intro a b x y h
  cases a <;> cases b <;> simp only [viaString] at h
  · exact ⟨rfl, List.append_cancel_left h⟩
  · rename_i b
    obtain ⟨c, t, e, hc⟩ := h0 b
    rw [e] at h; injection h with h _; exact absurd h.symm hc
  · rename_i a
    obtain ⟨c, t, e, hc⟩ := h0 a
    rw [e] at h; injection h with h _; exact absurd h hc
  · obtain ⟨rfl, e⟩ := hf _ _ _ _ h; exact ⟨rfl, e⟩

/-- The texts as functions of what they show. -/
def dateText (p : Option Int × Option YMD) : Str :=
  c! "[[*edtf.Date] Time: '" ++ viaString timestampString p.1 ++ c! "' YMD: '" ++ viaString YMD.string p.2 ++ c! "']"

def rangeText (p : Option (Option Int × Option YMD) × Option (Option Int × Option YMD)) : Str :=
  c! "[[*edtf.DateRange] Lower: '" ++ viaString dateText p.1 ++ c! "' Upper: '" ++ viaString dateText p.2 ++ c! "'["

theorem pre_date : Pre dateText := by
  rintro ⟨t, v⟩ ⟨t', v'⟩ x y h
  simp only [dateText, List.append_assoc, List.cons_append, List.nil_append, List.cons.injEq, true_and] at h
  obtain ⟨rfl, g1⟩ := pre_nil pre_timestamp (fun a => ⟨'&', _, rfl, by decide⟩) _ _ _ _ h
  simp only [List.cons.injEq, true_and] at g1
  obtain ⟨rfl, g2⟩ := pre_nil pre_ymd (fun a => ⟨'[', _, rfl, by decide⟩) _ _ _ _ g1
  simp only [List.cons.injEq, true_and] at g2
  exact ⟨rfl, g2⟩

theorem pre_range : Pre rangeText := by
  rintro ⟨t, v⟩ ⟨t', v'⟩ x y h
  have hd := pre_nil pre_date (fun a => ⟨'[', _, rfl, by decide⟩)
  simp only [rangeText, List.append_assoc, List.cons_append, List.nil_append, List.cons.injEq, true_and] at h
  obtain ⟨rfl, g1⟩ := hd _ _ _ _ h
  simp only [List.cons.injEq, true_and] at g1
  obtain ⟨rfl, g2⟩ := hd _ _ _ _ g1
  simp only [List.cons.injEq, true_and] at g2
  exact ⟨rfl, g2⟩

theorem date_text (d : Date) : d.string = dateText (seen d) := rfl

theorem via_map {α β : Type} {f : α → Str} {g : β → Str} {k : α → β} (h : ∀ a, f a = g (k a)) (o : Option α) :
    viaString f o = viaString g (o.map k) := by
  cases o <;> simp [viaString, h]

theorem range_text (r : DateRange) : r.string = rangeText (seenRange r) := by
  unfold DateRange.string rangeText seenRange
  rw [via_map date_text, via_map date_text]

theorem Pre.inj {α : Type} {f : α → Str} (h : Pre f) {a b : α} (e : f a = f b) : a = b := (h a b [] [] (by rw [e])).1

/-- C77: the text of year, month and day tells them. -/
theorem C77_ymd (v w : YMD) : v.string = w.string ↔ v = w := ⟨pre_ymd.inj, fun h => by rw [h]⟩

/-- C77: the text of a date tells the instant and the day, and nothing else. -/
theorem C77_date (d e : Date) : d.string = e.string ↔ d.timestamp = e.timestamp ∧ d.ymd = e.ymd := by
  rw [date_text, date_text]
  constructor
  · intro h
    have := pre_date.inj h
    exact ⟨congrArg Prod.fst this, congrArg Prod.snd this⟩
  · rintro ⟨h1, h2⟩; unfold seen; rw [h1, h2]

/-- C77: the text of a range tells which sides there are, with their instants and days. -/
theorem C77_range (r q : DateRange) : r.string = q.string ↔ seenRange r = seenRange q := by
  rw [range_text, range_text]
  exact ⟨pre_range.inj, fun h => by rw [h]⟩

/-- C77: the text of a span tells the same of both ranges. -/
theorem C77_span (s t : DateSpan) :
    s.string = t.string ↔ s.start.map seenRange = t.start.map seenRange ∧ s.stop.map seenRange = t.stop.map seenRange := by
  unfold DateSpan.string
  rw [via_map range_text, via_map range_text, via_map range_text, via_map range_text]
  constructor
  · intro h
    have hd := pre_nil pre_range (fun a => ⟨'[', _, rfl, by decide⟩)
    simp only [List.append_assoc, List.cons_append, List.nil_append, List.cons.injEq, true_and] at h
    obtain ⟨e1, g1⟩ := hd _ _ _ _ h
    simp only [List.cons.injEq, true_and] at g1
    obtain ⟨e2, g2⟩ := hd _ _ _ _ g1
    exact ⟨e1, e2⟩
  · rintro ⟨h1, h2⟩; rw [h1, h2]

/-- C77: the text of a record of texts tells them if they have no quotes (dates have none). -/
theorem C77_texts {d e : StringDate} (h1 : Unquoted d.year) (h2 : Unquoted d.month) (h3 : Unquoted d.day)
    (k1 : Unquoted e.year) (k2 : Unquoted e.month) (k3 : Unquoted e.day) (x y : Str) (h : d.string ++ x = e.string ++ y) : d = e ∧ x = y := by
  obtain ⟨a, b, c⟩ := d
  obtain ⟨a', b', c'⟩ := e
  simp only [StringDate.string, List.append_assoc, List.cons_append, List.nil_append, List.cons.injEq, true_and] at h
  obtain ⟨rfl, g1⟩ := cut_unique h1 k1 h
  simp only [List.cons.injEq, true_and] at g1
  obtain ⟨rfl, g2⟩ := cut_unique h2 k2 g1
  simp only [List.cons.injEq, true_and] at g2
  obtain ⟨rfl, g3⟩ := cut_unique h3 k3 g2
  simp only [List.cons.injEq, true_and] at g3
  exact ⟨rfl, g3⟩

/-- C77: so does the text of a qualifier. -/
theorem C77_qualifier {p q : Qualifier} (hp : Unquoted p.value) (hq : Unquoted q.value) : p.string = q.string ↔ p = q := by
  constructor
  · obtain ⟨a, b⟩ := p
    obtain ⟨a', b'⟩ := q
    intro h
    simp only [Qualifier.string, List.append_assoc, List.cons_append, List.nil_append, List.cons.injEq, true_and] at h
    obtain ⟨rfl, g1⟩ := cut_unique hp hq h
    cases b <;> cases b' <;> simp at g1 ⊢
  · rintro rfl; rfl

example : Unquoted (c! "2004") ∧ Qualifier.string { value := c! "2004", group := true } ≠ Qualifier.string { value := c! "2004", group := false } := by
  unfold Unquoted
  decide

/-- C77: String of a parsed date is the string, and parsing it again gives the same. -/
theorem C77_edtf {s : Str} {d : EDTFDate} (h : parseString s = .ok d) : parseString d.string = .ok d := by
  rw [C10_source h, h]

example : ∃ d, parseString (c! "Spring, 2001") = .ok d ∧ d.string = c! "Spring, 2001" := ⟨_, rfl, rfl⟩

/-! ### Brackets -/

theorem occ_append (c : Char) (s t : Str) : occurrences c (s ++ t) = occurrences c s + occurrences c t := by
  simp [occurrences]

theorem occ_itoa {c : Char} (h1 : c ≠ '-') (h2 : isDig c = false) (n : Int) : occurrences c (itoa n) = 0 := by
  unfold occurrences
  rw [List.length_eq_zero_iff, List.filter_eq_nil_iff]
  intro x hx e
  rw [beq_iff_eq] at e
  exact itoa_not h1 h2 n (e ▸ hx)

/-- C77: brackets are balanced in the text of a date, and never in the text of a range,
which has two more that open than close. -/
theorem C77_brackets (d : Date) (r : DateRange) :
    occurrences '[' d.string = occurrences ']' d.string ∧ occurrences '[' r.string = occurrences ']' r.string + 2 := by
  have ht : ∀ o, occurrences '[' (viaString timestampString o) = occurrences ']' (viaString timestampString o) := by
    intro o
    cases o with
    | none => rfl
    | some t => simp only [viaString, timestampString, occ_append, occ_itoa (c := '[') (by decide) rfl, occ_itoa (c := ']') (by decide) rfl]; rfl
  have hy : ∀ o, occurrences '[' (viaString YMD.string o) = occurrences ']' (viaString YMD.string o) := by
    intro o
    cases o with
    | none => rfl
    | some t => simp only [viaString, YMD.string, occ_append, occ_itoa (c := '[') (by decide) rfl, occ_itoa (c := ']') (by decide) rfl]; rfl
  have hd : ∀ d : Date, occurrences '[' d.string = occurrences ']' d.string := by
    intro d
    simp only [Date.string, occ_append, ht, hy]
    rw [show occurrences '[' (c! "[[*edtf.Date] Time: '") = 2 from rfl, show occurrences ']' (c! "[[*edtf.Date] Time: '") = 1 from rfl,
      show occurrences '[' (c! "' YMD: '") = 0 from rfl, show occurrences ']' (c! "' YMD: '") = 0 from rfl,
      show occurrences '[' (c! "']") = 0 from rfl, show occurrences ']' (c! "']") = 1 from rfl]
    omega
  have ho : ∀ o, occurrences '[' (viaString Date.string o) = occurrences ']' (viaString Date.string o) := by
    intro o
    cases o with
    | none => rfl
    | some t => exact hd t
  refine ⟨hd d, ?_⟩
  simp only [DateRange.string, occ_append, ho]
  rw [show occurrences '[' (c! "[[*edtf.DateRange] Lower: '") = 2 from rfl, show occurrences ']' (c! "[[*edtf.DateRange] Lower: '") = 1 from rfl,
    show occurrences '[' (c! "' Upper: '") = 0 from rfl, show occurrences ']' (c! "' Upper: '") = 0 from rfl,
    show occurrences '[' (c! "'[") = 1 from rfl, show occurrences ']' (c! "'[") = 0 from rfl]
  omega

/-! ### Examples -/

example : (Err.invalid (c! "date") (c! "Y12")).text = some (c! "Invalid EDTF string 'Y12' (date)") := by decide
/-- Without the condition on labels the text does not tell the error. -/
example : (Err.invalid (c! "c") (c! "a' (b")).text = (Err.invalid (c! "b' (c") (c! "a")).text := by decide
example : parseString (c! "Y12") = .err (.invalid (c! "date") (c! "12")) ∧ parseString (c! "hello") =
    .err (.unrecognized (c! "Invalid or unsupported EDTF string") (c! "hello")) := by decide +kernel
/-- The text tells the error but not the string: two strings with the same error. -/
example : parseString (c! "Y12E0") = .err (.invalid (c! "date") (c! "12")) := by decide +kernel
example : (Date.string { timestamp := some (-86400), ymd := some ⟨1969, 12, 31⟩ }) =
    c! "[[*edtf.Date] Time: '&{-86400}' YMD: '[*edtf.YMD] Y: '1969' M: '12' D: '31'']" := by decide +kernel
example : (DateSpan.string ⟨some {}, none⟩) =
    c! "[[*edtf.DateSpan] Start: '[[*edtf.DateRange] Lower: '<nil>' Upper: '<nil>'[' End: '<nil>']" := by decide +kernel
/-- Quotes inside make the texts of different records equal. -/
example : (StringDate.mk (c! "1' M: '2") (c! "3") []).string = (StringDate.mk (c! "1") (c! "2' M: '3") []).string := by decide +kernel
example : (StringRange.string ⟨⟨c! "1985", c! "04", []⟩, ⟨c! "1985", c! "05", []⟩, 0, 0, 0⟩) =
    c! "[[*common.StringRange] Start: '[[*common.StringDate] Y: '1985' M: '04' D: '']' End: '[[*common.StringDate] Y: '1985' M: '05' D: '']']" := by
  decide +kernel
example : Unquoted (c! "1985") ∧ ¬ Unquoted (c! "1' M: '2") := by unfold Unquoted; decide

end EDTF
