/- C73: the JSON text of every date.  C74: the runs of the tools for all arguments. -/
import Verif.SpecTool
import Verif.PropsFail
import Verif.PropsMatch
import Verif.PropsYmd
namespace EDTF
open Spec

variable {f : Int → Nat → Nat → Int}

/-! ### The JSON text -/

theorem escChar_json (c : Char) : escChar c = jsonChar c := by
  have small : ∀ n < 128, escChar (Char.ofNat n) = jsonChar (Char.ofNat n) := by decide +kernel
  by_cases h : c.toNat < 128
  · have := small _ h; rwa [Char.ofNat_toNat] at this
  · have ne : ∀ d : Char, d.toNat < 128 → c ≠ d := by intro d hd e; subst e; exact h hd
    by_cases h1 : c.toNat = 0x2028
    · rw [small_char h1]; decide +kernel
    by_cases h2 : c.toNat = 0x2029
    · rw [small_char h2]; decide +kernel
    have n1 : c ≠ ' ' := by intro e; subst e; exact h1 rfl
    have n2 : c ≠ ' ' := by intro e; subst e; exact h2 rfl
    have a : escChar c = [c] := by
      unfold escChar
      rw [if_neg (ne _ (by decide)), if_neg (ne _ (by decide)), if_neg (by omega), if_neg (by omega), if_neg (by omega), if_neg (by omega),
        if_neg (by omega), if_neg, if_neg h1, if_neg h2]
      rintro (h' | h' | h' | h')
      · omega
      · exact ne _ (by decide) h'
      · exact ne _ (by decide) h'
      · exact ne _ (by decide) h'
    have lk : ∀ {l : List (Char × Str)}, (∀ x ∈ l, c ≠ x.1) → l.lookup c = none := by
      intro l hl
      induction l with
      | nil => rfl
      | cons x l ih =>
        rw [List.lookup_cons]
        have := hl x List.mem_cons_self
        rw [show (c == x.1) = false from beq_eq_false_iff_ne.2 this]
        exact ih (fun y hy => hl y (List.mem_cons_of_mem _ hy))
    have b : jsonEscapes.lookup c = none := by
      apply lk
      intro x hx
      unfold jsonEscapes at hx
      simp only [List.mem_cons, List.not_mem_nil, or_false] at hx
      rcases hx with rfl | rfl | rfl | rfl | rfl | rfl | rfl | rfl | rfl | rfl | rfl | rfl
      all_goals first | exact n1 | exact n2 | exact ne _ (by decide)
    unfold jsonChar
    rw [b, a]
    simp only
    rw [if_neg (by omega)]

theorem escStr_json (s : Str) : escStr s = s.flatMap jsonChar := by
  induction s with
  | nil => rfl
  | cons c s ih => rw [escStr, ih, escChar_json, List.flatMap_cons]

theorem itoa_json (n : Int) : itoa n = jsonInt n := by
  have := itoa_digits n.natAbs
  unfold itoa at this
  rw [if_neg (by omega), Int.natAbs_natCast] at this
  unfold itoa jsonInt
  rw [this]

theorem text_str (s : Str) : (JV.ofStr s).text = jsonString s := by
  unfold JV.ofStr jsonString
  rw [JV.text, escStr_json]

theorem text_int (n : Int) : (JV.ofInt n).text = jsonInt n := by
  unfold JV.ofInt
  rw [JV.text, itoa_json]

theorem text_members (ms : List ((Str × Str) × JV)) :
    JV.textMembers ms = commas (ms.map fun m => '"' :: (m.1.1 ++ '"' :: ':' :: m.2.text)) := by
  induction ms with
  | nil => rw [JV.textMembers]; rfl
  | cons m ms ih =>
    obtain ⟨k, v⟩ := m
    cases ms with
    | nil => rw [JV.textMembers]; rfl
    | cons m ms =>
      rw [JV.textMembers, ih]
      simp [commas]

/-- The members of an object as names and texts. -/
def asTexts (ms : List ((Str × Str) × JV)) : List (Str × Str) := ms.map fun m => (m.1.1, m.2.text)

theorem text_obj (ms : List ((Str × Str) × JV)) : (JV.obj ms).text = jsonObject (asTexts ms) := by
  rw [JV.text, text_members]
  unfold jsonObject asTexts
  rw [List.map_map]; rfl

theorem asTexts_append (a b : List ((Str × Str) × JV)) : asTexts (a ++ b) = asTexts a ++ asTexts b := List.map_append

theorem asTexts_field (n : Str) (v : JV) : asTexts (field n v) = [(n, v.text)] := rfl

theorem asTexts_omit (n : Str) {e : Bool} {p : Prop} [Decidable p] (h : e = false ↔ p) (v : JV) :
    asTexts (fieldOmit n e v) = whenSet p n v.text := by
  unfold whenSet
  cases e with
  | true =>
    have hp : ¬ p := fun hp => by have := h.2 hp; cases this
    rw [if_neg hp]; rfl
  | false => rw [if_pos (h.1 rfl)]; rfl

theorem text_ptr {α : Type} {g : α → JV} {t : α → Str} (h : ∀ a, (g a).text = t a) (o : Option α) : (ofPtr g o).text = jsonOr t o := by
  cases o with
  | none => show JV.null.text = _; rw [JV.text]; rfl
  | some a => exact h a

theorem text_ymd (y : YMD) : y.toJson.text = ymdJson y := by
  unfold YMD.toJson ymdJson
  rw [text_obj, asTexts_append, asTexts_append, asTexts_field, asTexts_field, asTexts_field, text_int, text_int, text_int]; rfl

theorem text_date (d : Date) : d.toJson.text = boundaryJson d := by
  unfold Date.toJson boundaryJson
  rw [text_obj]
  congr 1
  simp only [asTexts_append, asTexts_field]
  have pr : ∀ p : Prec, (p == 0) = false ↔ p ≠ 0 := by intro p; simp
  rw [asTexts_omit _ (p := d.dateTime ≠ []) (by cases d.dateTime <;> simp), asTexts_omit _ (pr d.uncertain), asTexts_omit _ (pr d.approximate),
    asTexts_omit _ (pr d.unspecified), asTexts_omit _ (pr d.precision), asTexts_omit _ (pr d.inclusivity),
    asTexts_omit _ (e := !d.isOpen) (p := d.isOpen = true) (by simp), asTexts_omit _ (e := !d.unknown) (p := d.unknown = true) (by simp), text_ptr text_ymd]
  simp only [text_int, text_str]
  have ts : asTexts (fieldOmit (c! "timestamp") d.timestamp.isNone (ofPtr (fun t => .num (marshalTimestamp t)) d.timestamp)) =
      (match d.timestamp with
        | none => []
        | some t => [(c! "timestamp", jsonInt t)]) := by
    cases d.timestamp with
    | none => rfl
    | some t => show [(_, (JV.ofInt t).text)] = _; rw [text_int]
  have bl : ∀ (n : Str) (b : Bool), whenSet (b = true) n (JV.bool b).text = whenSet (b = true) n (c! "true") := by
    intro n b
    cases b
    · rfl
    · rw [JV.text]
  rw [ts, bl, bl]; cases d.timestamp <;> rfl

theorem text_range (r : DateRange) : r.toJson.text = rangeJson r := by
  unfold DateRange.toJson rangeJson
  rw [text_obj, asTexts_append, asTexts_append, asTexts_field, asTexts_field, asTexts_field, text_str, text_ptr text_date, text_ptr text_date]; rfl

/-- C73: the JSON text of every date, whatever its fields hold, character by character. -/
theorem C73_text (d : EDTFDate) : d.marshal = dateJson d := by
  unfold EDTFDate.marshal EDTFDate.toJson dateJson
  rw [text_obj]
  simp only [asTexts_append, asTexts_field, text_ptr text_range, text_str, text_int]
  rfl

/-- A date with a quote, a control character and a nil end. -/
example : (⟨none, some ⟨[], none, some { isOpen := true, timestamp := some (-1) }⟩, c! "a\"\x01<", -5, []⟩ : EDTFDate).marshal =
    c! "{\"start\":null,\"end\":{\"edtf\":\"\",\"lower\":null,\"upper\":{\"timestamp\":-1,\"ymd\":null,\"open\":true}},\"edtf\":\"a\\\"\\u0001\\u003c\",\"level\":-5,\"feature\":\"\"}" := by
  decide +kernel

/-! ### Arguments -/

theorem operands_iff (as : List Str) : (∀ bs, flagParse as = .args bs ↔ Operands as (.inl bs)) ∧ (∀ n, flagParse as = .exit n ↔ Operands as (.inr n)) := by
  by_cases hn : NoFlag as
  · have e := flagParse_plain hn
    rw [e]
    constructor
    · intro bs
      constructor
      · intro h; injection h with h; subst h; exact .plain hn
      · intro h
        cases h with
        | plain _ => rfl
        | dashes => exact absurd ⟨_, _, rfl⟩ hn
    · intro n
      constructor
      · intro h; cases h
      · intro h
        cases h with
        | help h =>
          exfalso
          apply hn
          obtain ⟨hy, n, v, h1, h2, -, rfl⟩ := h
          rcases h1 with rfl | rfl <;> rcases h2 with rfl | rfl <;> exact ⟨_, _, rfl⟩
        | flag h => exact absurd h hn
  · cases as with
    | nil => exact absurd trivial hn
    | cons a as =>
      have hh : Hyphened a := Classical.not_not.1 hn
      by_cases h2 : a = c! "--"
      · subst h2
        constructor
        · intro bs
          constructor
          · intro h; cases h; exact .dashes
          · intro h
            cases h with
            | plain h => exact absurd hh h
            | dashes => rfl
        · intro n
          constructor
          · intro h; cases h
          · intro h
            cases h with
            | help h =>
              exfalso
              obtain ⟨hy, n, v, h1, h2, -, e⟩ := h
              rcases h1 with rfl | rfl <;> rcases h2 with rfl | rfl <;> (injection e with _ e; injection e with e _; try exact absurd e (by decide))
              all_goals (rename_i e2; cases e2)
            | flag _ h _ => exact absurd rfl h
      · have no : ∀ bs, ¬ Operands (a :: as) (.inl bs) := by
          intro bs h
          cases h with
          | plain h => exact h hh
          | dashes => exact h2 rfl
        rcases flagParse_flag (as := as) hh h2 with ⟨ha, e⟩ | ⟨ha, e⟩
        · rw [e]
          refine ⟨fun bs => ⟨(fun h => by cases h), fun h => absurd h (no bs)⟩, fun n => ⟨?_, ?_⟩⟩
          · intro h; cases h; exact .help ha
          · intro h
            cases h with
            | help _ => rfl
            | flag _ _ h => exact absurd ha h
        · rw [e]
          refine ⟨fun bs => ⟨(fun h => by cases h), fun h => absurd h (no bs)⟩, fun n => ⟨?_, ?_⟩⟩
          · intro h; cases h; exact .flag hh h2 ha
          · intro h
            cases h with
            | help h => exact absurd h ha
            | flag _ _ _ => rfl

/-- C74: what is left of the arguments, for every list of arguments. -/
theorem C74_flags (as : List Str) :
    (∀ bs, flagParse as = .args bs ↔ Operands as (.inl bs)) ∧ (∀ n, flagParse as = .exit n ↔ Operands as (.inr n)) := operands_iff as

/-- A tool that runs over its operands, from the run over them. -/
theorem tool_run {R : Str → Res Str → Prop} {write : List Str → Option Nat → Str} {cmd : List Str → Run} {loop : List Str → Run}
    (hc : ∀ as, cmd as = match flagParse as with | .exit n => ⟨[], n⟩ | .args as => loop as)
    (hl : ∀ bs r, loop bs = r ↔ ∃ ts st, Outputs R bs ts st ∧ r = ⟨write ts st, st.getD 0⟩) (as : List Str) (r : Run) :
    cmd as = r ↔ ToolRun R write as r := by
  obtain ⟨h1, h2⟩ := operands_iff as
  rw [hc]
  constructor
  · intro h
    cases e : flagParse as with
    | exit n => rw [e] at h; subst h; exact .flags ((h2 n).1 e)
    | args bs =>
      rw [e] at h
      obtain ⟨ts, st, ho, rfl⟩ := (hl bs r).1 h
      exact .run ((h1 bs).1 e) ho
  · intro h
    cases h with
    | flags h => rw [(h2 _).2 h]
    | run h k => rw [(h1 _).2 h]; exact (hl _ _).2 ⟨_, _, k, rfl⟩

/-! ### One argument -/

theorem parseText_iff (hf : DayCount f) (s : Str) (r : Res Str) : ParseText f s r ↔
    r = (match parseString s with | .ok d => .ok d.marshal | .err e => .err e | .panic => .panic) := by
  constructor
  · intro h
    cases h with
    | ok h => rw [(C55_denotes hf _ _).2 h]; simp only [C73_text]
    | err h => rw [(C62_error _ _).2 h]
    | panic h => rw [(C63_panic _).2 h]
  · rintro rfl
    cases h : parseString s with
    | ok d => simp only [C73_text]; exact .ok ((C55_denotes hf _ _).1 h)
    | err e => exact .err ((C62_error _ _).1 h)
    | panic => exact .panic ((C63_panic _).1 h)

theorem told_ok {s : Str} {d : EDTFDate} (h : parseString s = .ok d) : parseStringM s = .ok d := by
  rcases parseStringM_cases s with ⟨d', k, h'⟩ | ⟨f, -, h'⟩ | ⟨-, h'⟩
  · rw [h] at h'; injection h' with h'; rw [k, h']
  · rw [h] at h'; cases h'
  · rw [h] at h'; cases h'

theorem told_panic {s : Str} (h : parseString s = .panic) : parseStringM s = .panic := by
  rcases parseStringM_cases s with ⟨d', -, h'⟩ | ⟨f, -, h'⟩ | ⟨k, -⟩
  · rw [h] at h'; cases h'
  · rw [h] at h'; cases h'
  · exact k

theorem parseLine_iff (hf : DayCount f) (s : Str) (r : Res Str) : ParseLine f s r ↔
    r = (match parseStringM s with | .ok d => .ok (d.marshal ++ c! "\n") | .fault f => .ok (f.text ++ c! "\n") | .panic => .panic) := by
  constructor
  · intro h
    cases h with
    | ok h => rw [told_ok ((C55_denotes hf _ _).2 h)]; simp only [C73_text]
    | err h => obtain ⟨f, k, rfl⟩ := (C79_text _ _).2 h; rw [k]
    | panic h => rw [told_panic ((C63_panic _).2 h)]
  · rintro rfl
    rcases parseStringM_cases s with ⟨d, k, h⟩ | ⟨f, k, -⟩ | ⟨k, h⟩
    · rw [k]; simp only [C73_text]; exact .ok ((C55_denotes hf _ _).1 h)
    · rw [k]; exact .err ((C79_text _ _).1 ⟨f, k, rfl⟩)
    · rw [k]; exact .panic ((C63_panic _).1 h)

theorem first_unique {α : Type} {d a b : α} {l : List (Prop × α)} (h : First d l a) (h' : First d l b) : a = b := by
  induction h with
  | none => cases h'; rfl
  | here h =>
    cases h' with
    | here => rfl
    | next h2 => exact absurd h h2
  | next h _ ih =>
    cases h' with
    | here h2 => exact absurd h2 h
    | next _ k => exact ih k

theorem matchIs_iff (s : Str) (r : Res (Int × Str)) : matchesStr s = r ↔ MatchIs s r := by
  obtain ⟨m0, m1, m2, m3⟩ := C66_matches s
  constructor
  · rintro rfl
    by_cases h0 : Level0Form s
    · exact .level0 h0 (m0 h0)
    by_cases h1 : Level1Form s
    · exact .level1 h0 h1 (m1 h0 h1)
    by_cases h2 : Level2Start s
    · exact .level2 h0 h1 h2 (m2 h0 h1 h2)
    rw [m3 h0 h1 h2]
    exact .none h0 h1 h2
  · intro h
    cases h with
    | level0 h k => exact first_unique (m0 h) k
    | level1 h0 h k => exact first_unique (m1 h0 h) k
    | level2 h0 h1 h k => exact first_unique (m2 h0 h1 h) k
    | none h0 h1 h2 => exact m3 h0 h1 h2

/-- C74: `Matches` as one relation. -/
theorem C74_matches (s : Str) (r : Res (Int × Str)) : matchesStr s = r ↔ MatchIs s r := matchIs_iff s r

theorem matchLine_iff (s : Str) (r : Res Str) : MatchLine s r ↔
    r = (match matchesStr s with | .ok (l, ft) => .ok (s ++ c! " level " ++ itoa l ++ c! " (" ++ ft ++ c! ")\n") | .err e => .err e | .panic => .panic) := by
  constructor
  · intro h
    cases h with
    | ok h => rw [(matchIs_iff _ _).2 h]; simp only [itoa_digits]
    | err h => rw [(matchIs_iff _ _).2 h]
  · rintro rfl
    cases h : matchesStr s with
    | ok p =>
      obtain ⟨l, ft⟩ := p
      obtain ⟨k, -, rfl⟩ := matchesStr_level h
      simp only [itoa_digits]
      exact .ok ((matchIs_iff _ _).1 h)
    | err e => exact .err ((matchIs_iff _ _).1 h)
    | panic => exact absurd h (C66_total s)

/-! ### The loops -/

theorem commas_cons {t : Str} {ts : List Str} : commas (t :: ts) = t ++ (ts.map (fun u => ',' :: u)).flatten := by
  induction ts generalizing t with
  | nil => simp [commas]
  | cons u ts ih => rw [commas, ih]; simp

theorem outputs_unique {R : Str → Res Str → Prop} (hR : ∀ a r r', R a r → R a r' → r = r') {as ts ts' : List Str} {st st' : Option Nat}
    (h : Outputs R as ts st) (h' : Outputs R as ts' st') : ts = ts' ∧ st = st' := by
  induction h generalizing ts' st' with
  | done => cases h'; exact ⟨rfl, rfl⟩
  | next h _ ih =>
    cases h' with
    | next h2 k2 =>
      obtain ⟨rfl, rfl⟩ := ih k2
      cases hR _ _ _ h h2; exact ⟨rfl, rfl⟩
    | error h2 => cases hR _ _ _ h h2
    | panic h2 => cases hR _ _ _ h h2
  | error h =>
    cases h' with
    | next h2 k2 => cases hR _ _ _ h h2
    | error h2 => exact ⟨rfl, rfl⟩
    | panic h2 => cases hR _ _ _ h h2
  | panic h =>
    cases h' with
    | next h2 k2 => cases hR _ _ _ h h2
    | error h2 => cases hR _ _ _ h h2
    | panic h2 => exact ⟨rfl, rfl⟩

theorem loop_iff {R : Str → Res Str → Prop} (hR : ∀ a r r', R a r → R a r' → r = r') {write : List Str → Option Nat → Str} {loop : List Str → Run}
    (h : ∀ bs, ∃ ts st, Outputs R bs ts st ∧ loop bs = ⟨write ts st, st.getD 0⟩) (bs : List Str) (r : Run) :
    loop bs = r ↔ ∃ ts st, Outputs R bs ts st ∧ r = ⟨write ts st, st.getD 0⟩ := by
  obtain ⟨ts, st, ho, e⟩ := h bs
  constructor
  · rintro rfl; exact ⟨ts, st, ho, e⟩
  · rintro ⟨ts', st', ho', rfl⟩
    obtain ⟨rfl, rfl⟩ := outputs_unique hR ho ho'
    exact e

theorem parseLoop_out' (hf : DayCount f) (bs : List Str) (out : Str) :
    (∃ ts st, Outputs (ParseText f) bs ts st ∧
      parseLoop out false bs = ⟨out ++ (ts.map (fun u => ',' :: u)).flatten ++ (if st = none then [']'] else []), st.getD 0⟩) := by
  induction bs generalizing out with
  | nil => exact ⟨[], none, .done, by simp [parseLoop]⟩
  | cons a bs ih =>
    have hp := parseText_iff hf a
    cases h : parseString a with
    | ok d =>
      rw [h] at hp
      obtain ⟨ts, st, ho, e⟩ := ih (out ++ c! "," ++ d.marshal)
      refine ⟨d.marshal :: ts, st, .next ((hp _).2 rfl) ho, ?_⟩
      rw [parseLoop, h]
      simp only [Bool.false_eq_true, if_false]
      rw [e]; simp
    | err x =>
      rw [h] at hp
      exact ⟨[], some 1, .error ((hp _).2 rfl), by rw [parseLoop, h]; simp⟩
    | panic =>
      rw [h] at hp
      exact ⟨[], some 2, .panic ((hp _).2 rfl), by rw [parseLoop, h]; simp⟩

/-- C74, cmd/parse: output and exit status for every list of arguments. -/
theorem C74_parse (hf : DayCount f) (as : List Str) (r : Run) : cmdParse as = r ↔ ParseTool f as r := by
  refine tool_run (loop := parseLoop (c! "[") true) (fun as => ?_) (loop_iff ?_ ?_) as r
  · unfold cmdParse; cases flagParse as <;> rfl
  · intro a r r' h h'
    rw [parseText_iff hf] at h h'
    rw [h, h']
  · intro bs
    cases bs with
    | nil => exact ⟨[], none, .done, rfl⟩
    | cons a bs =>
      have hp := parseText_iff hf a
      cases h : parseString a with
      | ok d =>
        rw [h] at hp
        obtain ⟨ts, st, ho, e⟩ := parseLoop_out' hf bs (c! "[" ++ d.marshal)
        refine ⟨d.marshal :: ts, st, .next ((hp _).2 rfl) ho, ?_⟩
        rw [parseLoop, h]
        simp only [if_true, List.append_nil]
        rw [e, commas_cons]; simp
      | err x =>
        rw [h] at hp
        exact ⟨[], some 1, .error ((hp _).2 rfl), by rw [parseLoop, h]; rfl⟩
      | panic =>
        rw [h] at hp
        exact ⟨[], some 2, .panic ((hp _).2 rfl), by rw [parseLoop, h]; rfl⟩

theorem matchesLoop_out' (bs : List Str) (out : Str) :
    (∃ ts st, Outputs MatchLine bs ts st ∧ matchesLoop out bs = ⟨out ++ ts.flatten, st.getD 0⟩) := by
  induction bs generalizing out with
  | nil => exact ⟨[], none, .done, by simp [matchesLoop]⟩
  | cons a bs ih =>
    have hp := matchLine_iff a
    cases h : matchesStr a with
    | ok p =>
      obtain ⟨l, ft⟩ := p
      rw [h] at hp
      obtain ⟨ts, st, ho, e⟩ := ih (out ++ a ++ c! " level " ++ itoa l ++ c! " (" ++ ft ++ c! ")\n")
      refine ⟨_, st, .next ((hp _).2 rfl) ho, ?_⟩
      rw [matchesLoop, h]
      simp only
      rw [e]; simp
    | err x =>
      rw [h] at hp
      exact ⟨[], some 1, .error ((hp _).2 rfl), by rw [matchesLoop, h]; simp⟩
    | panic => exact absurd h (C66_total a)

/-- C74, cmd/matches: output and exit status for every list of arguments. -/
theorem C74_match (as : List Str) (r : Run) : cmdMatches as = r ↔ MatchTool as r := by
  refine tool_run (loop := matchesLoop []) (fun as => ?_) (loop_iff ?_ ?_) as r
  · unfold cmdMatches; cases flagParse as <;> rfl
  · intro a r r' h h'
    rw [matchLine_iff] at h h'
    rw [h, h']
  · intro bs; exact matchesLoop_out' bs []

theorem wasiLoop_out' (hf : DayCount f) (bs : List Str) (out : Str) :
    (∃ ts st, Outputs (ParseLine f) bs ts st ∧ wasiLoop out bs = ⟨out ++ ts.flatten, st.getD 0⟩) := by
  induction bs generalizing out with
  | nil => exact ⟨[], none, .done, by simp [wasiLoop]⟩
  | cons a bs ih =>
    have hp := parseLine_iff hf a
    cases h : parseStringM a with
    | ok d =>
      rw [h] at hp
      obtain ⟨ts, st, ho, e⟩ := ih (out ++ d.marshal ++ c! "\n")
      refine ⟨_, st, .next ((hp _).2 rfl) ho, ?_⟩
      rw [wasiLoop, wasiParse, h]
      simp only
      rw [e]; simp
    | fault x =>
      rw [h] at hp
      obtain ⟨ts, st, ho, e⟩ := ih (out ++ x.text ++ c! "\n")
      refine ⟨_, st, .next ((hp _).2 rfl) ho, ?_⟩
      rw [wasiLoop, wasiParse, h]
      simp only
      rw [e]; simp
    | panic =>
      rw [h] at hp
      exact ⟨[], some 2, .panic ((hp _).2 rfl), by rw [wasiLoop, wasiParse, h]; simp⟩

/-- C74, cmd/parse-wasi: output and exit status for every list of arguments. -/
theorem C74_wasi (hf : DayCount f) (as : List Str) (r : Run) : cmdWasi as = r ↔ WasiTool f as r := by
  refine tool_run (loop := wasiLoop []) (fun as => ?_) (loop_iff ?_ ?_) as r
  · unfold cmdWasi; cases flagParse as <;> rfl
  · intro a r r' h h'
    rw [parseLine_iff hf] at h h'
    rw [h, h']
  · intro bs; exact wasiLoop_out' hf bs []

theorem jsText_iff (v : JsValue) (s : Str) : JsText v s ↔ v.toStr = s := by
  constructor
  · intro h; cases h <;> rfl
  · rintro rfl
    cases v with
    | string s => exact .string s
    | undefined => exact .undefined
    | null => exact .null
    | boolean b => cases b; exact .no; exact .yes
    | number t => exact .number t
    | symbol => exact .symbol
    | object => exact .object
    | function => exact .function

theorem utf8_sum (s : Str) : utf8Length s = (s.map Char.utf8Size).sum := by
  induction s with
  | nil => rfl
  | cons c s ih => rw [utf8Length, ih]; rfl

/-- C74, cmd/parse-wasm: what becomes of every call. -/
theorem C74_wasm (hf : DayCount f) (vs : List JsValue) (r : JsCall) : wasmParse vs = r ↔ WasmTool f vs r := by
  have key : WasmTool f vs (wasmParse vs) := by
    cases vs with
    | nil => exact .nothing
    | cons v vs =>
      have hv := (jsText_iff v _).2 rfl
      show WasmTool f (v :: vs) (wasmHandler v.toStr)
      unfold wasmHandler
      rcases parseStringM_cases v.toStr with ⟨d, k, h⟩ | ⟨x, k, -⟩ | ⟨k, h⟩
      · rw [k]; simp only [C73_text]; exact .ok hv ((C55_denotes hf _ _).1 h)
      · rw [k]; simp only [itoa_digits, utf8_sum]
        exact .err hv ((C79_text _ _).1 ⟨x, k, rfl⟩)
      · rw [k]; exact .panic hv ((C63_panic _).1 h)
  have hd : ∀ {s e}, Denotes f s e → parseString s = .ok e := fun h => (C55_denotes hf _ _).2 h
  constructor
  · rintro rfl; exact key
  · intro h
    cases h with
    | nothing => rfl
    | ok hv h =>
      rw [jsText_iff] at hv; subst hv
      show wasmHandler _ = _
      rw [wasmHandler, told_ok (hd h)]; simp only [C73_text]
    | err hv h =>
      rw [jsText_iff] at hv; subst hv
      show wasmHandler _ = _
      obtain ⟨x, k, rfl⟩ := (C79_text _ _).2 h
      rw [wasmHandler, k]
      simp only [itoa_digits, utf8_sum]
      rfl
    | panic hv h =>
      rw [jsText_iff] at hv; subst hv
      show wasmHandler _ = _
      rw [wasmHandler, told_panic ((C63_panic _).2 h)]

/-- Help, a negative year taken for a flag, the same after two hyphens, and an error after a date. -/
example : cmdParse [c! "-h"] = ⟨[], 0⟩ ∧ cmdParse [c! "-1985"] = ⟨[], 2⟩ ∧ (cmdParse [c! "--", c! "-1985"]).status = 0 ∧
    cmdMatches [c! "1985", c! "x", c! "1986"] = ⟨c! "1985 level 0 (Date)\n", 1⟩ := by decide +kernel

end EDTF
