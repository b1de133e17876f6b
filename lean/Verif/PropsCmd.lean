/- C51 to C53: the command-line tools. -/
import Verif.Cmd
import Verif.PropsJson
import Verif.PropsMessage
namespace EDTF
open Spec

namespace Spec

/-- An argument the flag package takes for a flag or for the end of the flags: a hyphen
and something after it. -/
def Hyphened (a : Str) : Prop := ∃ c r, a = '-' :: c :: r

/-- The first argument, if there is one, is not taken for a flag. -/
def NoFlag : List Str → Prop
  | [] => True
  | a :: _ => ¬ Hyphened a

/-- An argument asking for help: `-h`, `-help`, with one or two hyphens and perhaps a
value. -/
def AsksHelp (a : Str) : Prop :=
  ∃ hy n v, (hy = c! "-" ∨ hy = c! "--") ∧ (n = c! "h" ∨ n = c! "help") ∧ (v = [] ∨ ∃ w, v = '=' :: w) ∧ a = hy ++ n ++ v

/-- Texts joined by commas. -/
def commas : List Str → Str
  | [] => []
  | [a] => a
  | a :: b :: l => a ++ ',' :: commas (b :: l)

end Spec

/-! ### Flags -/

theorem flagParse_plain {as : List Str} (h : NoFlag as) : flagParse as = .args as := by
  cases as with
  | nil => rfl
  | cons a as =>
    have h : ¬ Hyphened a := h
    unfold flagParse
    simp only
    split
    · exact absurd ⟨_, _, rfl⟩ h
    · exact absurd ⟨_, _, rfl⟩ h
    · exact absurd ⟨_, _, rfl⟩ h
    · rfl

theorem flagName_help {n s : Str} (hn : '=' ∉ n) : flagName s = n ↔ ∃ v, (v = [] ∨ ∃ w, v = '=' :: w) ∧ s = n ++ v := by
  constructor
  · intro h
    induction s generalizing n with
    | nil => subst h; exact ⟨[], .inl rfl, rfl⟩
    | cons c s ih =>
      unfold flagName at h
      by_cases hc : c = '='
      · rw [if_pos hc] at h; subst h hc; exact ⟨_, .inr ⟨s, rfl⟩, rfl⟩
      · rw [if_neg hc] at h
        subst h
        obtain ⟨v, hv, e⟩ := ih (by intro h; exact hn (List.mem_cons_of_mem _ h)) rfl
        exact ⟨v, hv, by show c :: s = c :: (flagName s ++ v); rw [← e]⟩
  · rintro ⟨v, hv, rfl⟩
    induction n with
    | nil =>
      rcases hv with rfl | ⟨w, rfl⟩
      · rfl
      · show flagName ('=' :: w) = []; rw [flagName, if_pos rfl]
    | cons c n ih =>
      show flagName (c :: (n ++ v)) = _
      rw [flagName, if_neg (by intro h; subst h; exact hn List.mem_cons_self), ih (fun h => hn (List.mem_cons_of_mem _ h))]

theorem flagParse_flag {a : Str} {as : List Str} (h : Hyphened a) (h2 : a ≠ c! "--") :
    (AsksHelp a ∧ flagParse (a :: as) = .exit 0) ∨ (¬ AsksHelp a ∧ flagParse (a :: as) = .exit 2) := by
  obtain ⟨c, r, rfl⟩ := h
  have mk : ∀ (hy s : Str), (hy = c! "-" ∨ hy = c! "--") → (flagName s = c! "help" ∨ flagName s = c! "h") → AsksHelp (hy ++ s) := by
    intro hy s h1 h2
    rcases h2 with h2 | h2
    · obtain ⟨v, hv, rfl⟩ := (flagName_help (by decide)).1 h2
      exact ⟨hy, _, v, h1, .inr rfl, hv, by rw [List.append_assoc]⟩
    · obtain ⟨v, hv, rfl⟩ := (flagName_help (by decide)).1 h2
      exact ⟨hy, _, v, h1, .inl rfl, hv, by rw [List.append_assoc]⟩
  by_cases hc : c = '-'
  · subst hc
    cases r with
    | nil => exact absurd rfl h2
    | cons d r =>
      show (_ ∧ (if d = '-' ∨ d = '=' then Flags.exit 2 else if flagName (d :: r) = c! "help" ∨ flagName (d :: r) = c! "h" then .exit 0 else .exit 2) = _) ∨
        (_ ∧ (if d = '-' ∨ d = '=' then Flags.exit 2 else if flagName (d :: r) = c! "help" ∨ flagName (d :: r) = c! "h" then .exit 0 else .exit 2) = _)
      have back : AsksHelp ('-' :: '-' :: d :: r) → d ≠ '-' ∧ d ≠ '=' ∧ (flagName (d :: r) = c! "help" ∨ flagName (d :: r) = c! "h") := by
        rintro ⟨hy, n, v, rfl | rfl, rfl | rfl, hv, e⟩
        · injection e with _ e; injection e with e; exact absurd e (by decide)
        · injection e with _ e; injection e with e; exact absurd e (by decide)
        · injection e with _ e; injection e with _ e
          have e' : d :: r = c! "h" ++ v := e
          refine ⟨?_, ?_, .inr ((flagName_help (by decide)).2 ⟨v, hv, e'⟩)⟩ <;> (injection e with e; rw [e]; decide)
        · injection e with _ e; injection e with _ e
          have e' : d :: r = c! "help" ++ v := e
          refine ⟨?_, ?_, .inl ((flagName_help (by decide)).2 ⟨v, hv, e'⟩)⟩ <;> (injection e with e; rw [e]; decide)
      by_cases h1 : d = '-' ∨ d = '='
      · rw [if_pos h1]
        refine .inr ⟨fun h => ?_, rfl⟩
        rcases h1 with h1 | h1
        · exact (back h).1 h1
        · exact (back h).2.1 h1
      · rw [if_neg h1]
        by_cases h3 : flagName (d :: r) = c! "help" ∨ flagName (d :: r) = c! "h"
        · rw [if_pos h3]; exact .inl ⟨mk (c! "--") (d :: r) (.inr rfl) h3, rfl⟩
        · rw [if_neg h3]; exact .inr ⟨fun h => h3 (back h).2.2, rfl⟩
  · have e : flagParse (('-' :: c :: r) :: as) = (if c = '=' then Flags.exit 2 else if flagName (c :: r) = c! "help" ∨ flagName (c :: r) = c! "h" then .exit 0 else .exit 2) := by
      unfold flagParse
      simp only
      split
      · rename_i heq; injection heq with _ heq; injection heq with heq; exact absurd heq hc
      · rename_i heq; injection heq with _ heq; injection heq with heq; exact absurd heq hc
      · rename_i heq; injection heq with _ heq; injection heq with h1 h2; subst h1 h2; rfl
      · rename_i heq; exact absurd rfl (heq _ _)
    rw [e]
    have back : AsksHelp ('-' :: c :: r) → c ≠ '=' ∧ (flagName (c :: r) = c! "help" ∨ flagName (c :: r) = c! "h") := by
      rintro ⟨hy, n, v, rfl | rfl, rfl | rfl, hv, e⟩
      · injection e with _ e
        have e' : c :: r = c! "h" ++ v := e
        refine ⟨?_, .inr ((flagName_help (by decide)).2 ⟨v, hv, e'⟩)⟩
        injection e with e; rw [e]; decide
      · injection e with _ e
        have e' : c :: r = c! "help" ++ v := e
        refine ⟨?_, .inl ((flagName_help (by decide)).2 ⟨v, hv, e'⟩)⟩
        injection e with e; rw [e]; decide
      · injection e with _ e; injection e with e; exact absurd e hc
      · injection e with _ e; injection e with e; exact absurd e hc
    by_cases h1 : c = '='
    · rw [if_pos h1]; exact .inr ⟨fun h => (back h).1 h1, rfl⟩
    · rw [if_neg h1]
      by_cases h3 : flagName (c :: r) = c! "help" ∨ flagName (c :: r) = c! "h"
      · rw [if_pos h3]; exact .inl ⟨mk (c! "-") (c :: r) (.inl rfl) h3, rfl⟩
      · rw [if_neg h3]; exact .inr ⟨fun h => h3 (back h).2, rfl⟩

/-! ### The loop of the parse tool -/

theorem parseLoop_status (out : Str) (first : Bool) (as : List Str) :
    (parseLoop out first as).status = 0 ↔ ∀ a ∈ as, ∃ d, parseString a = .ok d := by
  induction as generalizing out first with
  | nil => simp [parseLoop]
  | cons a as ih =>
    unfold parseLoop
    cases h : parseString a with
    | ok d => simp [ih, h]
    | err e => simp [h]
    | panic => simp [h]

theorem parseLoop_out {as : List Str} {ds : List EDTFDate} (h : as.map parseString = ds.map .ok) (out : Str) (first : Bool) :
    parseLoop out first as = ⟨out ++ (if first = true ∨ ds = [] then [] else c! ",") ++ commas (ds.map EDTFDate.marshal) ++ c! "]", 0⟩ := by
  induction as generalizing out first ds with
  | nil =>
    cases ds with
    | cons d ds => cases h
    | nil => simp [parseLoop, commas]
  | cons a as ih =>
    cases ds with
    | nil => cases h
    | cons d ds =>
      injection h with h1 h2
      unfold parseLoop
      rw [h1]
      show parseLoop _ false as = _
      rw [ih h2]
      cases ds with
      | nil => cases first <;> simp [commas]
      | cons e ds => cases first <;> simp [commas]

theorem commas_text (vs : List JV) : commas (vs.map JV.text) = JV.textElems vs := by
  match vs with
  | [] => rw [JV.textElems]; rfl
  | [v] => rw [JV.textElems]; rfl
  | v :: w :: vs =>
    rw [JV.textElems, ← commas_text (w :: vs)]; rfl

theorem wf_elems (ds : List EDTFDate) : JV.WfElems (ds.map EDTFDate.toJson) := by
  induction ds with
  | nil => rw [List.map_nil, JV.WfElems]; trivial
  | cons d ds ih => rw [List.map_cons, JV.WfElems]; exact ⟨wf_edtf d, ih⟩

theorem depth_elems (ds : List EDTFDate) : JV.depthElems (ds.map EDTFDate.toJson) ≤ 4 := by
  induction ds with
  | nil => simp [JV.depthElems]
  | cons d ds ih =>
    have := depth_edtf d
    rw [List.map_cons, JV.depthElems]; omega

theorem arr_text (ds : List EDTFDate) : c! "[" ++ commas (ds.map EDTFDate.marshal) ++ c! "]" = (JV.arr (ds.map EDTFDate.toJson)).text := by
  rw [JV.text, ← commas_text]
  show '[' :: (commas (ds.map EDTFDate.marshal) ++ [']']) = _
  rw [List.map_map]
  rfl

/-! ### C51 -/

/-- C51, the exit status: for an argument list whose first argument is not taken for a
flag, the tool succeeds exactly when every argument parses. -/
theorem C51_status_partial {as : List Str} (h : NoFlag as) :
    (cmdParse as).status = 0 ↔ ∀ a ∈ as, ∃ d, parseString a = .ok d := by
  unfold cmdParse
  rw [flagParse_plain h]
  exact parseLoop_status _ _ _

example : NoFlag [c! "1985/..", c! "1985-13"] ∧ (cmdParse [c! "1985/..", c! "1985-13"]).status ≠ 0 :=
  ⟨(fun ⟨c, r, h⟩ => by cases h), by decide +kernel⟩

/-- C51, the exit status after the two hyphens that end the flags: exactly when every
argument parses, whatever it starts with. -/
theorem C51_status_dashes (as : List Str) :
    (cmdParse (c! "--" :: as)).status = 0 ↔ ∀ a ∈ as, ∃ d, parseString a = .ok d :=
  parseLoop_status _ _ _

/-- C51, the output: if every argument parses, the tool prints a JSON array whose n-th
element encodes the n-th argument; reading it back gives the parsed dates. -/
theorem C51_output_partial {as : List Str} {ds : List EDTFDate} (hn : NoFlag as) (h : as.map parseString = ds.map .ok) :
    (cmdParse as).stdout = c! "[" ++ commas (ds.map EDTFDate.marshal) ++ c! "]" ∧
    ∃ vs, readJson (cmdParse as).stdout = some (.arr vs) ∧ vs.length = as.length ∧
      ∀ (n : Nat) (v : JV) (d : EDTFDate), vs[n]? = some v → ds[n]? = some d →
        v.text = d.marshal ∧ EDTFDate.ofJson ⟨none, none, [], 0, []⟩ v = some d := by
  have e : (cmdParse as).stdout = c! "[" ++ commas (ds.map EDTFDate.marshal) ++ c! "]" := by
    unfold cmdParse
    rw [flagParse_plain hn]
    simp [parseLoop_out h]
  refine ⟨e, ds.map EDTFDate.toJson, ?_, ?_, ?_⟩
  · rw [e, arr_text]
    exact readJson_text (by rw [JV.Wf]; exact wf_elems ds) (by have := depth_elems ds; rw [JV.depth]; omega)
  · have := congrArg List.length h
    simpa using this.symm
  · intro n v d hv hd
    rw [List.getElem?_map, hd] at hv
    injection hv with hv
    subst hv
    refine ⟨rfl, ?_⟩
    have hm : d ∈ ds := List.mem_of_getElem? hd
    have hp : ∃ a, parseString a = .ok d := by
      have : Res.ok d ∈ as.map parseString := by rw [h]; exact List.mem_map_of_mem hm
      obtain ⟨a, -, ha⟩ := List.mem_map.1 this
      exact ⟨a, ha⟩
    obtain ⟨a, ha⟩ := hp
    have := C42_parsed ha
    unfold EDTFDate.unmarshal EDTFDate.marshal at this
    rw [readJson_text (wf_edtf d) (by have := depth_edtf d; omega)] at this
    exact this

/-- Three arguments, of three levels. -/
example : NoFlag [c! "1985", c! "-0100", c! "2004-06?"] ∧
    ∀ a ∈ [c! "1985", c! "-0100", c! "2004-06?"], ∃ d, parseString a = .ok d := by
  refine ⟨(fun ⟨c, r, h⟩ => by cases h), ?_⟩
  intro a ha
  simp only [List.mem_cons, List.not_mem_nil, or_false] at ha
  rcases ha with rfl | rfl | rfl <;> exact ⟨_, rfl⟩

/-- C51, a first argument with a hyphen: the tool prints nothing on standard output; it
succeeds when help is asked for and fails otherwise, whether or not the arguments parse. -/
theorem C51_flag {a : Str} {as : List Str} (h : Hyphened a) (h2 : a ≠ c! "--") :
    (cmdParse (a :: as)).stdout = [] ∧ ((cmdParse (a :: as)).status = 0 ↔ AsksHelp a) ∧
    ((cmdParse (a :: as)).status = 0 ∨ (cmdParse (a :: as)).status = 2) := by
  unfold cmdParse
  rcases flagParse_flag (as := as) h h2 with ⟨h1, e⟩ | ⟨h1, e⟩ <;> rw [e] <;> simp [h1]

example : Hyphened (c! "-0100") ∧ c! "-0100" ≠ c! "--" ∧ (cmdParse [c! "-0100", c! "1985"]).status = 2 ∧
    Hyphened (c! "--help") ∧ (cmdParse [c! "--help"]).status = 0 :=
  ⟨⟨_, _, rfl⟩, by decide, by decide +kernel, ⟨_, _, rfl⟩, by decide +kernel⟩

/-- C51 as stated is false both ways: a negative year parses, yet the tool fails when it
comes first, and the tool succeeds on "-h", which does not parse. -/
theorem C51_negation :
    (∃ d, parseString (c! "-1985") = .ok d) ∧ (cmdParse [c! "-1985"]).status = 2 ∧
    (∀ d, parseString (c! "-h") ≠ .ok d) ∧ (cmdParse [c! "-h"]).status = 0 :=
  ⟨⟨_, rfl⟩, rfl, (fun d h => by cases h), rfl⟩

/-- C51, every negative year fails as first argument. -/
theorem C51_negative_years {x : Date0} (hn : x.neg = true) (as : List Str) :
    cmdParse (x.text :: as) = ⟨[], 2⟩ := by
  have hx : ∃ k r, x.text = '-' :: dig k :: r := by
    obtain ⟨neg, n, t⟩ := x
    simp only at hn
    subst hn
    exact ⟨_, _, rfl⟩
  obtain ⟨k, r, e⟩ := hx
  have hk : ∀ c, c = '-' ∨ c = 'h' ∨ c = '=' → dig k ≠ c := by
    intro c hc e
    by_cases h : k < 10
    · have := (by decide : ∀ k < 10, dig k ≠ '-' ∧ dig k ≠ 'h' ∧ dig k ≠ '=') k h
      rcases hc with rfl | rfl | rfl
      · exact this.1 e
      · exact this.2.1 e
      · exact this.2.2 e
    · have e' : dig k = '?' := by unfold dig; rw [List.getD_eq_getElem?_getD, List.getElem?_eq_none (by simp; omega)]; rfl
      rw [e'] at e
      subst e
      exact absurd hc (by decide)
  have hh : Hyphened x.text := ⟨_, _, e⟩
  have hd : x.text ≠ c! "--" := by
    rw [e]; intro h; injection h with _ h; injection h with h
    exact hk _ (.inl rfl) h
  rcases flagParse_flag (as := as) hh hd with ⟨⟨hy, n, v, h1, h2, h3, e'⟩, -⟩ | ⟨-, e'⟩
  · exfalso
    rw [e] at e'
    rcases h1 with rfl | rfl <;> rcases h2 with rfl | rfl <;> injection e' with _ e' <;> injection e' with e'
    · exact hk _ (.inr (.inl rfl)) e'
    · exact hk _ (.inr (.inl rfl)) e'
    · exact hk _ (.inl rfl) e'
    · exact hk _ (.inl rfl) e'
  · unfold cmdParse; rw [e']

example : (⟨true, 1985, .day 4 12⟩ : Date0).text = c! "-1985-04-12" := rfl

theorem scanElems_open (vs : List JV) (h : JV.WfElems vs) (h0 : vs ≠ []) (n : Nat) (hn : JV.needElems vs ≤ n) :
    scanElems n (JV.textElems vs) = none := by
  match vs, h, h0, n, hn with
  | v :: vs, _, _, 0, hn => rw [JV.needElems] at hn; omega
  | [v], h, _, n + 1, hn =>
    rw [JV.WfElems] at h
    have ih := scanValue_text v h.1 n (by rw [JV.needElems] at hn; omega) [] .nil
    rw [List.append_nil] at ih
    rw [JV.textElems, scanElems, ih]; rfl
  | v :: w :: vs, h, _, n + 1, hn =>
    rw [JV.WfElems] at h
    have ih := scanValue_text v h.1 n (by rw [JV.needElems] at hn; omega) (',' :: JV.textElems (w :: vs)) (.cons (by decide))
    have ih2 := scanElems_open (w :: vs) h.2 (by simp) n (by rw [JV.needElems] at hn; omega)
    rw [JV.textElems, scanElems, ih]
    show (scanElems n (JV.textElems (w :: vs))).map _ = none
    rw [ih2]; rfl

theorem readJson_open (ds : List EDTFDate) : readJson ('[' :: commas (ds.map EDTFDate.marshal)) = none := by
  cases ds with
  | nil => rfl
  | cons d ds =>
    have e : commas ((d :: ds).map EDTFDate.marshal) = JV.textElems ((d :: ds).map EDTFDate.toJson) := by
      rw [← commas_text, List.map_map]; rfl
    rw [e]
    have hw := wf_elems (d :: ds)
    have hn := needElems_le _ hw
    have hx := scanElems_open _ hw (by simp) ((JV.textElems ((d :: ds).map EDTFDate.toJson)).length + 1) hn
    have hh : ∃ s, JV.textElems ((d :: ds).map EDTFDate.toJson) = '{' :: s := by
      have hd : ∃ s, d.toJson.text = '{' :: s := ⟨_, by unfold EDTFDate.toJson; rw [JV.text]⟩
      obtain ⟨s, hd⟩ := hd
      cases ds with
      | nil => exact ⟨s, by rw [List.map_cons, List.map_nil, JV.textElems, hd]⟩
      | cons e ds => exact ⟨_, by rw [List.map_cons, List.map_cons, JV.textElems, hd]; rfl⟩
    obtain ⟨s, hs⟩ := hh
    rw [hs] at hx ⊢
    unfold readJson
    have : scanValue (('[' :: '{' :: s).length + 1) ('[' :: '{' :: s) = none := by
      rw [scanValue, skipSpace_head (by decide)]
      show (scanElems (('{' :: s).length + 1) ('{' :: s)).map (fun (p : List JV × Str) => (JV.arr p.1, p.2)) = none
      rw [hx]; rfl
    rw [this]

theorem parseLoop_fail {as : List Str} (out : Str) (first : Bool) (h : (parseLoop out first as).status ≠ 0) :
    ∃ ds : List EDTFDate, ds.length < as.length ∧ (as.take ds.length).map parseString = ds.map .ok ∧
      (parseLoop out first as).stdout = out ++ (if first = true ∨ ds = [] then [] else c! ",") ++ commas (ds.map EDTFDate.marshal) := by
  induction as generalizing out first with
  | nil => exact absurd rfl h
  | cons a as ih =>
    unfold parseLoop at h ⊢
    cases hp : parseString a with
    | err e => exact ⟨[], by simp, rfl, by simp [commas]⟩
    | panic => exact ⟨[], by simp, rfl, by simp [commas]⟩
    | ok d =>
      rw [hp] at h
      obtain ⟨ds, h1, h2, h3⟩ := ih _ _ h
      refine ⟨d :: ds, by simpa using h1, by simp [hp, h2], ?_⟩
      simp only [h3]
      cases ds with
      | nil => cases first <;> simp [commas]
      | cons e ds => cases first <;> simp [commas]

/-- C51, a failing run: what has been printed encodes the arguments before the one that
failed, and is not a JSON text, so that it cannot be taken for a result. -/
theorem C51_failure {as : List Str} (hn : NoFlag as) (h : (cmdParse as).status ≠ 0) :
    (∃ ds : List EDTFDate, ds.length < as.length ∧ (as.take ds.length).map parseString = ds.map .ok ∧
      (cmdParse as).stdout = '[' :: commas (ds.map EDTFDate.marshal)) ∧
    readJson (cmdParse as).stdout = none := by
  have : ∃ ds : List EDTFDate, ds.length < as.length ∧ (as.take ds.length).map parseString = ds.map .ok ∧
      (cmdParse as).stdout = '[' :: commas (ds.map EDTFDate.marshal) := by
    unfold cmdParse at h ⊢
    rw [flagParse_plain hn] at h ⊢
    obtain ⟨ds, h1, h2, h3⟩ := parseLoop_fail _ _ h
    exact ⟨ds, h1, h2, by simp [h3]⟩
  refine ⟨this, ?_⟩
  obtain ⟨ds, -, -, e⟩ := this
  rw [e]
  exact readJson_open ds

example : NoFlag [c! "1985", c! "hello"] ∧ (cmdParse [c! "1985", c! "hello"]).status = 1 :=
  ⟨(fun ⟨c, r, h⟩ => by cases h), rfl⟩

/-! ### C52 -/

theorem matchesLoop_status (out : Str) (as : List Str) :
    (matchesLoop out as).status = 0 ↔ ∀ a ∈ as, ∃ l f, matchesStr a = .ok (l, f) := by
  induction as generalizing out with
  | nil => simp [matchesLoop]
  | cons a as ih =>
    unfold matchesLoop
    cases h : matchesStr a with
    | ok d => obtain ⟨l, f⟩ := d; simp [ih, h]
    | err e => simp [h]
    | panic => simp [h]

namespace Spec
/-- The line for an argument of a level from 0 to 2. -/
def levelLine (a : Str) (l : Nat) (ft : Str) : Str := a ++ c! " level " ++ [dig l] ++ c! " (" ++ ft ++ c! ")\n"
end Spec

/-- C52, the exit status of the matches tool. -/
theorem C52_status {as : List Str} (h : NoFlag as) :
    (cmdMatches as).status = 0 ↔ ∀ a ∈ as, ∃ l f, matchesStr a = .ok (l, f) := by
  unfold cmdMatches
  rw [flagParse_plain h]
  exact matchesLoop_status _ _

example : NoFlag [c! "1985/..", c! "1985-13"] ∧ (cmdMatches [c! "1985/.."]).status = 0 ∧ (cmdMatches [c! "1985/..", c! "hello"]).status ≠ 0 :=
  ⟨(fun ⟨c, r, h⟩ => by cases h), by decide +kernel, by decide +kernel⟩

theorem matchesStr_level {a ft : Str} {l : Int} (h : matchesStr a = .ok (l, ft)) : ∃ k : Nat, k ≤ 2 ∧ l = k := by
  unfold matchesStr at h
  split at h
  · obtain ⟨x, -, h⟩ := Res.bind_eq_ok.1 h; injection h with h; injection h with h _; exact ⟨0, by omega, h.symm⟩
  split at h
  · obtain ⟨x, -, h⟩ := Res.bind_eq_ok.1 h; injection h with h; injection h with h _; exact ⟨1, by omega, h.symm⟩
  split at h
  · obtain ⟨x, -, h⟩ := Res.bind_eq_ok.1 h; injection h with h; injection h with h _; exact ⟨2, by omega, h.symm⟩
  cases h

theorem matchesLoop_out {as : List Str} {ls : List (Nat × Str)}
    (h : as.map matchesStr = ls.map (fun p => .ok ((p.1 : Int), p.2))) (out : Str) :
    matchesLoop out as = ⟨out ++ (List.zipWith (fun a p => levelLine a p.1 p.2) as ls).flatten, 0⟩ := by
  induction as generalizing out ls with
  | nil =>
    cases ls with
    | cons d ds => cases h
    | nil => simp [matchesLoop]
  | cons a as ih =>
    cases ls with
    | nil => cases h
    | cons p ls =>
      injection h with h1 h2
      obtain ⟨k, hk, e⟩ := matchesStr_level h1
      have e : p.1 = k := by exact_mod_cast e
      unfold matchesLoop
      rw [h1]
      simp only
      rw [ih h2]
      have hi : itoa (p.1 : Int) = [dig p.1] := by
        rw [e]; exact (by decide : ∀ k : Nat, k ≤ 2 → itoa (k : Int) = [dig k]) k hk
      simp [levelLine, hi]

/-- C52, the output of the matches tool: one line for each argument, in order, with its
level as one digit and its feature. -/
theorem C52_output {as : List Str} {ls : List (Nat × Str)} (hn : NoFlag as)
    (h : as.map matchesStr = ls.map (fun p => .ok ((p.1 : Int), p.2))) :
    cmdMatches as = ⟨(List.zipWith (fun a p => levelLine a p.1 p.2) as ls).flatten, 0⟩ := by
  unfold cmdMatches
  rw [flagParse_plain hn]
  simp [matchesLoop_out h]

example : cmdMatches [c! "1985", c! "2004-06-11?", c! "Y-17E7"] =
    ⟨c! "1985 level 0 (Date)\n2004-06-11? level 1 (Seasons)\nY-17E7 level 2 (Exponential year)\n", 0⟩ := by decide +kernel

/-- C52, the two tools: if the parse tool succeeds, so does the matches tool, unless one
of the arguments is the open or the unknown date. -/
theorem C52_follows {as : List Str} (hn : NoFlag as) (h : (cmdParse as).status = 0)
    (h1 : ∀ a ∈ as, a ≠ c! ".." ∧ a ≠ []) : (cmdMatches as).status = 0 := by
  rw [C52_status hn]
  intro a ha
  obtain ⟨d, hd⟩ := (C51_status_partial hn).1 h a ha
  have hl : d.level ≠ -1 := by
    intro hl
    rcases C30_only hd hl with e | e
    · exact (h1 a ha).1 e
    · exact (h1 a ha).2 e
  exact ⟨_, _, C11_agree hd hl⟩

example : NoFlag [c! "1985", c! "-0100"] ∧ (cmdParse [c! "1985", c! "-0100"]).status = 0 ∧ ∀ a ∈ [c! "1985", c! "-0100"], a ≠ c! ".." ∧ a ≠ [] :=
  ⟨(fun ⟨c, r, h⟩ => by cases h), by decide +kernel, by decide⟩

/-- C52, the exceptions are real: the parse tool accepts the open date, the matches tool
does not; and a string may match without parsing. -/
theorem C52_exceptions :
    (cmdParse [c! ".."]).status = 0 ∧ (cmdMatches [c! ".."]).status = 1 ∧
    (cmdParse [c! "2021-02-31"]).status = 1 ∧ (cmdMatches [c! "2021-02-31"]).status = 0 := by decide +kernel

/-! ### C53 -/

/-- C53: the WASI tool ends with success exactly when no argument makes the parser panic,
however many of them are errors. -/
theorem C53_status {as : List Str} (h : NoFlag as) :
    (cmdWasi as).status = 0 ↔ ∀ a ∈ as, parseString a ≠ .panic := by
  unfold cmdWasi
  rw [flagParse_plain h]
  simp only
  generalize ([] : Str) = out
  clear h
  induction as generalizing out with
  | nil => simp [wasiLoop]
  | cons a as ih =>
    unfold wasiLoop wasiParse
    rcases parseStringM_cases a with ⟨d, h, k⟩ | ⟨f, h, k⟩ | ⟨h, k⟩
    · simp [ih, h, k]
    · simp [ih, h, k]
    · simp [h, k]

example : NoFlag [c! "hello", c! "1985"] ∧ (cmdWasi [c! "hello", c! "1985"]).status = 0 ∧ (cmdWasi [c! "hello", c! "1950S5"]).status ≠ 0 :=
  ⟨(fun ⟨c, r, h⟩ => by cases h), by decide +kernel, by decide +kernel⟩

/-- C53, the output: one line per argument: its JSON text or the text of its error. -/
theorem C53_output {as : List Str} (hn : NoFlag as) (h : ∀ a ∈ as, parseString a ≠ .panic) :
    ∃ ls : List Str, ls.length = as.length ∧ (cmdWasi as).stdout = (ls.map (fun l => l ++ c! "\n")).flatten ∧
      ∀ (n : Nat) (a l : Str), as[n]? = some a → ls[n]? = some l →
        (∀ d, parseString a = .ok d → l = d.marshal ∧ EDTFDate.unmarshal l = some d) ∧
        (∀ e, parseString a = .err e → Spec.ErrorText a l) := by
  refine ⟨as.map (fun a => match parseStringM a with | .ok d => d.marshal | .fault f => f.text | .panic => []), by simp, ?_, ?_⟩
  · unfold cmdWasi
    rw [flagParse_plain hn]
    simp only
    have key : ∀ out, (wasiLoop out as).stdout =
        out ++ ((as.map (fun a => match parseStringM a with | .ok d => d.marshal | .fault f => f.text | .panic => [])).map (fun l => l ++ c! "\n")).flatten := by
      clear hn
      induction as with
      | nil => intro out; simp [wasiLoop]
      | cons a as ih =>
        intro out
        have ih := ih (fun b hb => h b (List.mem_cons_of_mem _ hb))
        unfold wasiLoop wasiParse
        rcases parseStringM_cases a with ⟨d, hp, -⟩ | ⟨f, hp, -⟩ | ⟨-, hp⟩
        · simp [ih, hp]
        · simp [ih, hp]
        · exact absurd hp (h a List.mem_cons_self)
    rw [key]; rfl
  · intro n a l ha hl
    rw [List.getElem?_map, ha] at hl
    injection hl with hl
    simp only at hl
    constructor
    · intro d hd
      rcases parseStringM_cases a with ⟨d', hp, k⟩ | ⟨f, -, k⟩ | ⟨-, k⟩
      · rw [hd] at k
        injection k with k
        subst k
        rw [hp] at hl
        subst hl
        exact ⟨rfl, C42_parsed hd⟩
      · rw [hd] at k; cases k
      · rw [hd] at k; cases k
    · intro e he
      rcases parseStringM_cases a with ⟨d, -, k⟩ | ⟨f, hp, -⟩ | ⟨-, k⟩
      · rw [he] at k; cases k
      · rw [hp] at hl
        exact (C79_text _ _).1 ⟨f, hp, hl⟩
      · rw [he] at k; cases k

/-- An error and a date; and an argument that makes the tool panic. -/
example : (∀ a ∈ [c! "hello", c! "1985"], parseString a ≠ .panic) ∧ parseString (c! "1950S5") = .panic := by
  refine ⟨?_, rfl⟩
  intro a ha
  simp only [List.mem_cons, List.not_mem_nil, or_false] at ha
  rcases ha with rfl | rfl <;> (intro h; cases h)

end EDTF
