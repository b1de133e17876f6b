/- C111: what can be told of a string from the error that the parser gives for it. -/
import Verif.PropsMessage
import Verif.PropsBytes
import Verif.PropsChars
import Verif.PropsGeneral
namespace EDTF
open Spec

theorem date_head {s t : Str} (h : DateText s t) : t.head? ≠ some 'U' := by
  cases h with
  | negative e h hn a b c hy => decide
  | other e h hy hd hr t ht => cases ht <;> nofun

theorem explains_head {s t : Str} (h : Explains s t) : t.head? ≠ some 'U' := by
  have exp : ∀ {es : List Nat} {t : Str}, ExpText es t → t.head? ≠ some 'U' := by
    intro es t h
    cases h <;> nofun
  cases h with
  | single s t h h1 h2 hn hd => exact date_head hd
  | time s t h => cases h <;> nofun
  | left a b t h ha hd => exact date_head hd
  | right a b t h ha h1 hd => exact date_head hd
  | lastWinter => decide
  | lastWinterName w t1 t2 hw h1 h2 => decide
  | exponential yc ec hy he neg ms es hm hes h t ht => exact exp ht
  | sigExponential yc ec hy he neg ms es hm hes h ds hd t ht => exact exp ht
  | setLeast o c ho hc cs hs a ha hl h0 t hd => exact date_head hd
  | setGreatest o c ho hc cs hs a b ha hb hl h0 t hd => exact date_head hd

theorem unrecognized_whole {s : Str} {e : Err} (h : parseString s = .err e) (he : isUnrecognized e = true) :
    e = .unrecognized (c! "Invalid or unsupported EDTF string") s := by
  have hv := (C14_unrecognized s).1 ⟨e, h, he⟩
  unfold isValid at hv
  split at hv
  · cases hv
  split at hv
  · cases hv
  split at hv
  · cases hv
  rename_i h0 h1 h2
  unfold parseString at h
  rw [if_neg h0, if_neg h1, if_neg h2] at h
  split at h
  · cases h
  split at h
  · cases h
  injection h with h
  rw [← h]
  rfl

theorem text_whole {s r : Str} (h : ErrorText s (c! "Unr" ++ r)) :
    c! "Unr" ++ r = c! "Unrecognized EDTF string '" ++ s ++ c! "' (Invalid or unsupported EDTF string)" := by
  rcases h with ⟨e, hF, hk⟩ | h
  · generalize hx : c! "Unr" ++ r = x at hk
    cases hk with
    | invalid l w => cases hx
    | unsupported l w => cases hx
    | notImplemented l w => cases hx
    | unrecognized l w =>
      have := unrecognized_whole ((C62_error s _).2 hF) rfl
      injection this with h1 h2
      rw [h1, h2]
      simp
  · exact absurd rfl (explains_head h)

/-- **C111**: an error that begins with `Unrecognized` shows the whole string, byte for byte. -/
theorem C111_shown_partial {b r : Bytes} (h : parseBytesM b = .fault (ascii (c! "Unr") ++ r)) :
    ascii (c! "Unr") ++ r = ascii (c! "Unrecognized EDTF string '") ++ b ++ ascii (c! "' (Invalid or unsupported EDTF string)") := by
  rcases (C102_bytes b).1 with ⟨s, hs⟩ | hu
  · rw [(C102_parse hs).1] at h
    cases e : parseStringM s with
    | ok x => rw [e] at h; cases h
    | panic => rw [e] at h; cases h
    | fault f =>
      rw [e] at h
      injection h with h
      have ht := (C79_text s f.text).1 ⟨f, e, rfl⟩
      have hr := congrArg runes h
      rw [runes_encode] at hr
      have hu : runes (ascii (c! "Unr") ++ r) = c! "Unr" ++ runes r := by
        rw [show ascii (c! "Unr") = encode (c! "Unr") from by decide, runes_append]
      rw [hr, hu] at ht
      have := text_whole ht
      rw [← hu, ← hr] at this
      rw [← h, this, isUtf8_iff.1 hs, encode_append, encode_append]
      rfl
  · obtain ⟨u, hu⟩ := hu
    have k := ((C102_broken b _ (not_utf8.2 ⟨u, hu⟩)).1).1 h
    generalize hx : ascii (c! "Unr") ++ r = x at k
    cases k with
    | invalid h k => cases hx
    | unrecognized h k => rfl

/-- **C111**: two strings with the same error that begins with `Unrecognized` are the same. -/
theorem C111_unrecognized_partial {a b r : Bytes} (ha : parseBytesM a = .fault (ascii (c! "Unr") ++ r)) (hb : parseBytesM b = .fault (ascii (c! "Unr") ++ r)) :
    a = b := by
  have e := (C111_shown_partial ha).symm.trans (C111_shown_partial hb)
  simp only [List.append_assoc] at e
  exact List.append_cancel_right (List.append_cancel_left e)

/-- The error is of one of the types of errors.go, with this label and this string. -/
def Spec.ErrNames (e : Err) (label w : Str) : Prop :=
  e = .invalid label w ∨ e = .unsupported label w ∨ e = .unrecognized label w ∨ e = .notImplemented label w

theorem label_date {t l w : Str} {e : Err} (h : DateFails t e) (hn : ErrNames e l w) : l = c! "date" := by
  cases h <;> rcases hn with h | h | h | h <;> cases h <;> rfl

/-- **C111**: the string that an error names is the whole string, unless the error is about a date or about an
exponent; in the latter case what is missing is the letter at the beginning and the significant digits at the end. -/
theorem C111_named_partial {s l w : Str} {e : Err} (h : parseString s = .err e) (hn : ErrNames e l w) :
    w = s ∨ l = c! "date" ∨
      (l = c! "exponential notation" ∧ ∃ c r, c ∈ c! "Yy" ∧ s = c :: (w ++ r) ∧ (r = [] ∨ ∃ ds, Digits ds ∧ r = 'S' :: ds.map dig)) := by
  have exp : ∀ {neg ms es} {t : Str} {e : Err}, ExpFails neg ms es t e → ErrNames e l w → l = c! "exponential notation" ∧ w = t := by
    intro neg ms es t e h hn
    cases h <;> rcases hn with h | h | h | h <;> cases h <;> exact ⟨rfl, rfl⟩
  have hF := (C62_error s e).1 h
  cases hF with
  | single _ e h h1 h2 hn' hd => exact .inr (.inl (label_date hd hn))
  | left t u e h ht hd => exact .inr (.inl (label_date hd hn))
  | right t u e h ht h1 hd => exact .inr (.inl (label_date hd hn))
  | setLeast o c ho hc cs hs a ha hl h0 e hd => exact .inr (.inl (label_date hd hn))
  | setGreatest o c ho hc cs hs a b ha hb hl h0 e hd => exact .inr (.inl (label_date hd hn))
  | exponential yc ec hy he neg ms es hm hes e h =>
    obtain ⟨h1, h2⟩ := exp h hn
    exact .inr (.inr ⟨h1, yc, [], hy, by rw [h2, List.append_nil], .inl rfl⟩)
  | sigExponential yc ec hy he neg ms es hm hes e h ds hd =>
    obtain ⟨h1, h2⟩ := exp h hn
    exact .inr (.inr ⟨h1, yc, _, hy, by rw [h2], .inr ⟨ds, hd, rfl⟩⟩)
  | _ => rcases hn with h | h | h | h <;> cases h <;> first | exact .inl rfl | exact .inr (.inl rfl)

/-- **C111**: two strings with the same error are the same, when it has another label than these. -/
theorem C111_same_partial {s s' l w : Str} {e : Err} (h : parseString s = .err e) (h' : parseString s' = .err e) (hn : ErrNames e l w)
    (h1 : l ≠ c! "date") (h2 : l ≠ c! "exponential notation") : s = s' := by
  rcases C111_named_partial h hn with a | a | a
  · rcases C111_named_partial h' hn with b | b | b
    · exact a.symm.trans b
    · exact absurd b h1
    · exact absurd b.1 h2
  · exact absurd a h1
  · exact absurd a.1 h2

theorem fails_named {t l w : Str} {e : Err} (h : DateFails t e) (hn : ErrNames e l w) : w = t := by
  cases h <;> rcases hn with h | h | h | h <;> cases h <;> rfl

theorem member_inside {cs : List Chunk} {a : Str} (h : a ∈ cs.flatMap Chunk.members) : ∃ u v, commaJoin (cs.map Chunk.text) = u ++ (a ++ v) := by
  have one : ∀ {k : Chunk}, a ∈ k.members → ∃ u v, k.text = u ++ (a ++ v) := by
    intro k hk
    cases k with
    | run r => exact ⟨[], [], by simp [Chunk.members] at hk; simp [Chunk.text, hk]⟩
    | pair x y =>
      simp [Chunk.members] at hk
      rcases hk with hk | hk
      · exact ⟨[], c! ".." ++ runText y, by simp [Chunk.text, hk]⟩
      · exact ⟨runText x ++ c! "..", [], by simp [Chunk.text, hk]⟩
    | upTo r => exact ⟨c! "..", [], by simp [Chunk.members] at hk; simp [Chunk.text, hk]⟩
    | onFrom r => exact ⟨[], c! "..", by simp [Chunk.members] at hk; simp [Chunk.text, hk]⟩
    | blank => exact ⟨[], [], by simp [Chunk.members] at hk; simp [Chunk.text, hk]⟩
    | dots => exact ⟨c! "..", [], by simp [Chunk.members] at hk; simp [Chunk.text, hk]⟩
  induction cs with
  | nil => cases h
  | cons k cs ih =>
    rw [List.flatMap_cons, List.mem_append] at h
    rcases h with h | h
    · obtain ⟨u, v, e⟩ := one h
      cases cs with
      | nil => exact ⟨u, v, e⟩
      | cons k' cs => exact ⟨u, v ++ ',' :: commaJoin ((k' :: cs).map Chunk.text), by
          show k.text ++ ',' :: commaJoin ((k' :: cs).map Chunk.text) = _
          rw [e]
          simp only [List.append_assoc]⟩
    · obtain ⟨u, v, e⟩ := ih h
      cases cs with
      | nil => cases h
      | cons k' cs => exact ⟨k.text ++ ',' :: u, v, by
          show k.text ++ ',' :: commaJoin ((k' :: cs).map Chunk.text) = _
          rw [e]
          simp only [List.append_assoc, List.cons_append]⟩

/-- **C111**: the string that an error names is a part of the string that was given, unless this begins with a minus
sign, is a grouping or has an exponent or significant digits. -/
theorem C111_part_partial {s l w : Str} {e : Err} (h : parseString s = .err e) (hn : ErrNames e l w)
    (h1 : s.head? ≠ some '-') (h2 : ¬ SubYearForm s) (h3 : ∀ c ∈ c! "EeS", c ∉ s) : ∃ u v, s = u ++ (w ++ v) := by
  have hF := (C62_error s e).1 h
  cases hF with
  | single _ e h h1 h2 hn' hd => exact ⟨[], [], by simp [fails_named hd hn]⟩
  | left t u e h ht hd => exact ⟨[], '/' :: u, by simp [fails_named hd hn]⟩
  | right t u e h ht h1 hd => exact ⟨t ++ c! "/", [], by simp [fails_named hd hn]⟩
  | setLeast o c ho hc cs hs a ha hl h0 e hd =>
    obtain ⟨u, v, e⟩ := member_inside ha
    exact ⟨o :: u, v ++ [c], by simp [fails_named hd hn, e]⟩
  | setGreatest o c ho hc cs hs a b ha hb hl h0 e hd =>
    obtain ⟨u, v, e⟩ := member_inside hb
    exact ⟨o :: u, v ++ [c], by simp [fails_named hd hn, e]⟩
  | letterShort neg us hu hl => exact ⟨c! "Y", [], by rcases hn with h | h | h | h <;> cases h <;> simp⟩
  | month => exact absurd rfl h1
  | season => exact absurd rfl h1
  | winter => exact absurd rfl h1
  | minus => exact absurd rfl h1
  | exponential yc ec hy he neg ms es =>
    exact absurd (by cases neg <;> simp [signed]) (h3 ec (by revert he; simp; rintro (h | h) <;> simp [h]))
  | exponentialShort yc ec hy he neg ms es =>
    exact absurd (by cases neg <;> simp [signed]) (h3 ec (by revert he; simp; rintro (h | h) <;> simp [h]))
  | sigExponential => exact absurd (by simp) (h3 'S' (by decide))
  | sigLarge => exact absurd (by simp) (h3 'S' (by decide))
  | sigShort => exact absurd (by simp) (h3 'S' (by decide))
  | grouping n hn' g hg h t ht =>
    refine absurd ⟨n, g.code, hn', .inr ?_, rfl⟩ h2
    cases g with
    | north z => cases z <;> decide
    | south z => cases z <;> decide
    | quarter k => have := k.isLt; show 21 ≤ 33 + k.val ∧ 33 + k.val ≤ 41; omega
    | quadrimester k => have := k.isLt; show 21 ≤ 37 + k.val ∧ 37 + k.val ≤ 41; omega
    | semester k => have := k.isLt; show 21 ≤ 40 + k.val ∧ 40 + k.val ≤ 41; omega
  | _ => exact ⟨[], [], by rcases hn with h | h | h | h <;> cases h <;> simp⟩

/-- **C111**: each of these exceptions occurs: the error names something that is no part of the string. -/
theorem C111_made_partial : ∀ p ∈ [(c! "-0999-21", c! "-999-03-01"), (c! "9999-28", c! "10000-02"), (c! "Y5E1", c! "50"), (c! "0123S2", c! "100")],
    parseString p.1 = .err (.invalid (c! "date") p.2) ∧ ¬ ∃ u v, p.1 = u ++ (p.2 ++ v) := by
  have inside : ∀ {u w v : Str}, (List.range (u ++ (w ++ v)).length).any (fun i => w.isPrefixOf ((u ++ (w ++ v)).drop i)) = true ∨ w ++ v = [] := by
    intro u w v
    rcases h : w ++ v with _ | ⟨c, r⟩
    · exact .inr rfl
    · refine .inl (List.any_eq_true.2 ⟨u.length, by simp, ?_⟩)
      rw [List.drop_left, ← h, List.isPrefixOf_iff_prefix]
      exact ⟨v, rfl⟩
  intro p hp
  refine ⟨by revert p; decide +kernel, fun ⟨u, v, e⟩ => ?_⟩
  have k := @inside u p.2 v
  rw [← e] at k
  have no : ∀ p ∈ [(c! "-0999-21", c! "-999-03-01"), (c! "9999-28", c! "10000-02"), (c! "Y5E1", c! "50"), (c! "0123S2", c! "100")],
      p.2 ≠ [] ∧ (List.range p.1.length).any (fun i => p.2.isPrefixOf (p.1.drop i)) = false := by decide +kernel
  rcases k with k | k
  · rw [(no p hp).2] at k
    cases k
  · exact (no p hp).1 (List.append_eq_nil_iff.1 k).1

theorem clock_plain {s t : Str} (h : ClockText s t) : '"' ∉ s ∧ ∃ r, t = c! "parsing time \"" ++ s ++ '"' :: r := by
  refine ⟨fun hq => ?_, ?_⟩
  · have k : parseString s = .err .plain := by
      rw [← C79_forget, (C79_plain s t).2 (.time s t h)]
      rfl
    obtain ⟨h1, h2⟩ := C78_foreign hq (by decide)
    cases e : isValid s with
    | true => rw [(h1 e).1] at k; cases k
    | false => rw [(h2 e).1] at k; cases k
  · cases h with
    | short x hx ht hh mi ss h1 h2 h3 z hz => exact ⟨_, by simp only [quoted, List.append_assoc, List.cons_append, List.nil_append]; rfl⟩
    | range neg y m d hx hh mi ss h1 h2 h3 z hz what h => exact ⟨_, by simp only [quoted, List.append_assoc, List.cons_append, List.nil_append]; rfl⟩

theorem clock_same {s s' t : Str} (h : ClockText s t) (h' : ClockText s' t) : s = s' := by
  obtain ⟨h1, r, h2⟩ := clock_plain h
  obtain ⟨h1', r', h2'⟩ := clock_plain h'
  rw [h2, List.append_assoc, List.append_assoc] at h2'
  have e := List.append_cancel_left h2'
  have tw : ∀ {s r : Str}, '"' ∉ s → (s ++ '"' :: r).takeWhile (· != '"') = s := by
    intro s r hs
    induction s with
    | nil => rfl
    | cons c s ih =>
      have hc : (c != '"') = true := by simpa using fun e : c = '"' => hs (by simp [e])
      rw [List.cons_append, List.takeWhile_cons, if_pos hc, ih fun h => hs (by simp [h])]
  have := congrArg (List.takeWhile (· != '"')) e
  rwa [tw h1, tw h1'] at this

theorem parsing_clock {s r : Str} (h : ErrorText s ('p' :: r)) : ClockText s ('p' :: r) ∨ 'p' :: r = winterText := by
  generalize hx : 'p' :: r = t at h
  have date : ∀ {a : Str}, DateText a t → False := by
    intro a h
    subst hx
    generalize hy : 'p' :: r = t at h
    cases h with
    | negative e h hn a b c hy' => cases hy
    | other e h hy' hd hr t ht => cases ht <;> cases hy
  have exp : ∀ {es : List Nat}, ExpText es t → False := by
    intro es h
    cases h <;> cases hx
  rcases h with ⟨e, -, hk⟩ | h
  · cases hk <;> cases hx
  · cases h with
    | single s t h h1 h2 hn hd => exact (date hd).elim
    | time s t h => exact .inl h
    | left a b t h ha hd => exact (date hd).elim
    | right a b t h ha h1 hd => exact (date hd).elim
    | lastWinter => exact .inr rfl
    | lastWinterName w t1 t2 hw h1 h2 => exact .inr rfl
    | exponential yc ec hy he neg ms es hm hes h t ht => exact (exp ht).elim
    | sigExponential yc ec hy he neg ms es hm hes h ds hd t ht => exact (exp ht).elim
    | setLeast o c ho hc cs hs a ha hl h0 t hd => exact (date hd).elim
    | setGreatest o c ho hc cs hs a b ha hb hl h0 t hd => exact (date hd).elim

/-- **C111**: two strings with the same error that begins with `parsing time` are the same, unless it is about the
winter that ends in 10000. -/
theorem C111_time_partial {s s' r : Str} {f f' : Fault} (h : parseStringM s = .fault f) (h' : parseStringM s' = .fault f')
    (e : f.text = c! "parsing time" ++ r) (e' : f'.text = c! "parsing time" ++ r) (hw : c! "parsing time" ++ r ≠ winterText) : s = s' := by
  have k := (C79_text s _).1 ⟨f, h, e⟩
  have k' := (C79_text s' _).1 ⟨f', h', e'⟩
  rcases parsing_clock k with c | c
  · rcases parsing_clock k' with c' | c'
    · exact clock_same c c'
    · exact absurd c' hw
  · exact absurd c hw

/-- **C111**: other errors do not tell which string they are about: the texts of these pairs are the same, and the
text for the last string shows a string that was not given. -/
theorem C111_negation : (∃ a b t, a ≠ b ∧ parseBytesM a = .fault t ∧ parseBytesM b = .fault t) ∧
    parseBytesM (ascii (c! "1985-04-31")) = parseBytesM (ascii (c! "1986-06-31/1987")) ∧
    parseBytesM (ascii (c! "9999-24")) = parseBytesM (ascii (c! "Winter, 9999")) ∧
    parseBytesM (ascii (c! "1985-99")) = parseBytesM (ascii (c! "1984/1985-99")) ∧
    parseBytesM (ascii (c! "Y17E7")) = parseBytesM (ascii (c! "y17E7S3")) ∧
    parseBytesM (ascii (c! "-0999-21")) = .fault (ascii (c! "Invalid EDTF string '-999-03-01' (date)")) :=
  ⟨⟨ascii (c! "1985-04-31"), ascii (c! "1985-06-31"), ascii (c! "Invalid days for month"), by decide, by decide +kernel, by decide +kernel⟩,
    by decide +kernel, by decide +kernel, by decide +kernel, by decide +kernel, by decide +kernel⟩

example : parseBytesM (ascii (c! "hello '") ++ [0xFF]) =
    .fault (ascii (c! "Unr") ++ (ascii (c! "ecognized EDTF string 'hello '") ++ [0xFF] ++ ascii (c! "' (Invalid or unsupported EDTF string)"))) := by decide +kernel
example : parseStringM (c! "1985-04-12T25:00:00") = .says (c! "parsing time" ++ c! " \"1985-04-12T25:00:00\": hour out of range") ∧
    c! "parsing time" ++ c! " \"1985-04-12T25:00:00\": hour out of range" ≠ winterText := by decide +kernel
example : parseString (c! "Y19850") = .err (.unsupported (c! "Letter-prefixed calendar year") (c! "Y19850")) ∧
    ErrNames (.unsupported (c! "Letter-prefixed calendar year") (c! "Y19850")) (c! "Letter-prefixed calendar year") (c! "Y19850") ∧
    parseString (c! "Y17E7S3") = .err (.unsupported (c! "exponential notation") (c! "17E7")) := ⟨by decide +kernel, .inr (.inl rfl), by decide +kernel⟩
example : parseString (c! "1984/1985-99") = .err (.invalid (c! "date") (c! "1985-99")) ∧ ∀ c ∈ c! "EeS", c ∉ c! "1984/1985-99" := by decide +kernel

end EDTF
