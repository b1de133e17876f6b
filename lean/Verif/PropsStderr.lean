/-
Property C80: what the tools write to standard error.
-/
import Verif.Stderr
import Verif.SpecStderr
import Verif.PropsTool
namespace EDTF
open Spec

/-! ### Flags -/

theorem flagParse_one {c : Char} {r : Str} {as : List Str} (hc : c ≠ '-') : flagParse (('-' :: c :: r) :: as) =
    if c = '=' then Flags.exit 2 else if flagName (c :: r) = c! "help" ∨ flagName (c :: r) = c! "h" then .exit 0 else .exit 2 := by
  unfold flagParse
  simp only
  split
  · rename_i heq; injection heq with _ heq; injection heq with heq; exact absurd heq hc
  · rename_i heq; injection heq with _ heq; injection heq with heq; exact absurd heq hc
  · rename_i heq; injection heq with _ heq; injection heq with h1 h2; subst h1 h2; rfl
  · rename_i heq; exact absurd rfl (heq _ _)

theorem flagParseM_one {usage : Str} {c : Char} {r : Str} {as : List Str} (hc : c ≠ '-') : flagParseM usage (('-' :: c :: r) :: as) =
    if c = '=' then (Flags.exit 2, c! "bad flag syntax: " ++ ('-' :: c :: r) ++ c! "\n" ++ usage)
    else if flagName (c :: r) = c! "help" ∨ flagName (c :: r) = c! "h" then (Flags.exit 0, usage)
    else (.exit 2, c! "flag provided but not defined: -" ++ flagName (c :: r) ++ c! "\n" ++ usage) := by
  unfold flagParseM
  simp only
  split
  · rename_i heq; injection heq with _ heq; injection heq with heq; exact absurd heq hc
  · rename_i heq; injection heq with _ heq; injection heq with heq; exact absurd heq hc
  · rename_i heq; injection heq with _ heq; injection heq with h1 h2; subst h1 h2; rfl
  · rename_i heq; exact absurd rfl (heq _ _)

theorem flagParseM_fst (usage : Str) (as : List Str) : (flagParseM usage as).1 = flagParse as := by
  cases as with
  | nil => rfl
  | cons s as =>
    by_cases h : Hyphened s
    · obtain ⟨c, r, rfl⟩ := h
      by_cases hc : c = '-'
      · subst hc
        cases r with
        | nil => rfl
        | cons d r =>
          unfold flagParseM flagParse
          simp only
          split
          · rfl
          · split <;> rfl
      · rw [flagParse_one hc, flagParseM_one hc]
        split
        · rfl
        · split <;> rfl
    · rw [flagParse_plain (as := s :: as) h]
      unfold flagParseM
      simp only
      split
      · exact absurd ⟨_, _, rfl⟩ h
      · exact absurd ⟨_, _, rfl⟩ h
      · exact absurd ⟨_, _, rfl⟩ h
      · rfl

theorem flagName_split (s : Str) : ∃ v, (v = [] ∨ ∃ w, v = '=' :: w) ∧ s = flagName s ++ v ∧ '=' ∉ flagName s := by
  induction s with
  | nil => exact ⟨[], .inl rfl, rfl, by simp [flagName]⟩
  | cons c s ih =>
    obtain ⟨v, hv, e, hn⟩ := ih
    unfold flagName
    by_cases hc : c = '='
    · subst hc
      exact ⟨_, .inr ⟨s, rfl⟩, by simp, by simp⟩
    · rw [if_neg hc]
      exact ⟨v, hv, by rw [List.cons_append, ← e], by simp [hn, Ne.symm hc]⟩

theorem named_text {hy r : Str} {c : Char} (hh : hy = c! "-" ∨ hy = c! "--") (h1 : c ≠ '-') (h2 : c ≠ '=') :
    (flagName (c :: r) = c! "help" ∨ flagName (c :: r) = c! "h") ∧ FlagText (hy ++ c :: r) [] ∨
    ¬ (flagName (c :: r) = c! "help" ∨ flagName (c :: r) = c! "h") ∧
      FlagText (hy ++ c :: r) (c! "flag provided but not defined: -" ++ flagName (c :: r) ++ c! "\n") := by
  obtain ⟨v, hv, e, hn⟩ := flagName_split (c :: r)
  by_cases k : flagName (c :: r) = c! "help" ∨ flagName (c :: r) = c! "h"
  · exact .inl ⟨k, .help ⟨hy, _, v, hh, k.symm, hv, by rw [List.append_assoc, ← e]⟩⟩
  · refine .inr ⟨k, ?_⟩
    have := FlagText.unknown hh (n := flagName (c :: r)) (v := v)
      ⟨by simp [flagName, h2], by simp [flagName, h1, h2], hn⟩ hv ⟨fun x => k (.inr x), fun x => k (.inl x)⟩
    rwa [List.append_assoc, ← e] at this

/-- A first argument that ends the program. -/
theorem flag_exit (usage a : Str) (as : List Str) (h : Hyphened a) (h2 : a ≠ c! "--") :
    ∃ n t, flagParseM usage (a :: as) = (.exit n, t ++ usage) ∧ FlagText a t := by
  obtain ⟨c, r, rfl⟩ := h
  by_cases hc : c = '-'
  · subst hc
    cases r with
    | nil => exact absurd rfl h2
    | cons d r =>
      unfold flagParseM
      simp only
      by_cases h1 : d = '-'
      · subst h1
        rw [if_pos (.inl rfl)]
        exact ⟨2, _, rfl, .hyphens⟩
      by_cases h3 : d = '='
      · subst h3
        rw [if_pos (.inr rfl)]
        exact ⟨2, _, rfl, .equals2⟩
      rw [if_neg (by rintro (k | k); exact h1 k; exact h3 k)]
      rcases named_text (hy := c! "--") (r := r) (.inr rfl) h1 h3 with ⟨k, t⟩ | ⟨k, t⟩
      · rw [if_pos k]
        exact ⟨0, [], rfl, t⟩
      · rw [if_neg k]
        exact ⟨2, _, rfl, t⟩
  · rw [flagParseM_one hc]
    by_cases h3 : c = '='
    · subst h3
      rw [if_pos rfl]
      exact ⟨2, _, rfl, .equals⟩
    rw [if_neg h3]
    rcases named_text (hy := c! "-") (r := r) (.inl rfl) hc h3 with ⟨k, t⟩ | ⟨k, t⟩
    · rw [if_pos k]
      exact ⟨0, [], rfl, t⟩
    · rw [if_neg k]
      exact ⟨2, _, rfl, t⟩

theorem flagText_hyphened {a t : Str} (h : FlagText a t) : Hyphened a ∧ a ≠ c! "--" := by
  cases h with
  | help h =>
    obtain ⟨hy, n, v, h1, h2, -, rfl⟩ := h
    rcases h1 with rfl | rfl <;> rcases h2 with rfl | rfl <;> exact ⟨⟨_, _, rfl⟩, by simp⟩
  | equals => exact ⟨⟨_, _, rfl⟩, by simp⟩
  | equals2 => exact ⟨⟨_, _, rfl⟩, by simp⟩
  | hyphens => exact ⟨⟨_, _, rfl⟩, by simp⟩
  | unknown hh hn hv h =>
    rename_i hy n v
    obtain ⟨h1, h2, -⟩ := hn
    cases n with
    | nil => exact absurd rfl h1
    | cons c n =>
      rcases hh with rfl | rfl
      · refine ⟨⟨c, n ++ v, rfl⟩, ?_⟩
        intro e
        injection e with _ e
        injection e with e
        exact h2 (by rw [e]; rfl)
      · exact ⟨⟨'-', c :: (n ++ v), rfl⟩, by simp⟩

/-- The name in an argument that is a flag. -/
theorem flagText_unique {a t u : Str} (h : FlagText a t) (k : FlagText a u) : t = u := by
  have hn : ∀ {n v : Str}, '=' ∉ n → (v = [] ∨ ∃ w, v = '=' :: w) → flagName (n ++ v) = n := fun h1 h2 =>
    (flagName_help h1).2 ⟨_, h2, rfl⟩
  have name : ∀ {a t}, FlagText a t → ∀ hy c r, (hy = c! "-" ∨ hy = c! "--") → c ≠ '-' → c ≠ '=' → a = hy ++ c :: r →
      t = if flagName (c :: r) = c! "help" ∨ flagName (c :: r) = c! "h" then [] else
        c! "flag provided but not defined: -" ++ flagName (c :: r) ++ c! "\n" := by
    intro a t h hy c r hh h1 h2 e
    have cut : ∀ {hy' : Str} {c' : Char} {r' : Str}, (hy' = c! "-" ∨ hy' = c! "--") → c' ≠ '-' → hy' ++ c' :: r' = hy ++ c :: r →
        c' :: r' = c :: r := by
      rintro hy' c' r' (rfl | rfl) hc' e' <;> rcases hh with rfl | rfl
      · injection e'
      · injection e' with _ e'; injection e' with e' _; exact absurd e' hc'
      · injection e' with _ e'; injection e' with e' _; exact absurd e'.symm h1
      · injection e' with _ e'; injection e'
    cases h with
    | help h =>
      obtain ⟨hy', n, v, hh', hn', hv, rfl⟩ := h
      rw [if_pos]
      have e' : flagName (c :: r) = n := by
        rcases hn' with rfl | rfl
        · rw [← cut (c' := 'h') hh' (by decide) (by rw [← e, List.append_assoc]; rfl)]
          exact hn (n := c! "h") (by decide) hv
        · rw [← cut (c' := 'h') (r' := c! "elp" ++ v) hh' (by decide) (by rw [← e, List.append_assoc]; rfl)]
          exact hn (n := c! "help") (by decide) hv
      rw [e']
      exact hn'.symm
    | equals =>
      rcases hh with rfl | rfl
      · injection e with _ e; injection e with e; exact absurd e.symm h2
      · injection e with _ e; injection e with e; exact absurd e (by decide)
    | equals2 =>
      rcases hh with rfl | rfl
      · injection e with _ e; injection e with e; exact absurd e.symm h1
      · injection e with _ e; injection e with _ e; injection e with e; exact absurd e.symm h2
    | hyphens =>
      rcases hh with rfl | rfl
      · injection e with _ e; injection e with e; exact absurd e.symm h1
      · injection e with _ e; injection e with _ e; injection e with e; exact absurd e.symm h1
    | unknown hh' hn' hv' h' =>
      rename_i hy' n v
      obtain ⟨k1, k2, k3⟩ := hn'
      cases n with
      | nil => exact absurd rfl k1
      | cons c' n =>
        have e' : flagName (c :: r) = c' :: n := by
          rw [← cut (c' := c') (r' := n ++ v) hh' (fun k => k2 (by rw [k]; rfl)) (by rw [← e, List.append_assoc]; rfl)]
          exact hn (n := c' :: n) k3 hv'
        rw [e', if_neg]
        rintro (k | k)
        · exact h'.2 k
        · exact h'.1 k
  cases h with
  | help h =>
    obtain ⟨hy, n, v, hh, hn', hv, rfl⟩ := id h
    rcases hn' with rfl | rfl
    · rw [name (.help h) hy 'h' v hh (by decide) (by decide) (by rw [List.append_assoc]; rfl),
        name k hy 'h' v hh (by decide) (by decide) (by rw [List.append_assoc]; rfl)]
    · rw [name (.help h) hy 'h' (c! "elp" ++ v) hh (by decide) (by decide) (by rw [List.append_assoc]; rfl),
        name k hy 'h' (c! "elp" ++ v) hh (by decide) (by decide) (by rw [List.append_assoc]; rfl)]
  | unknown hh hn' hv h =>
    rename_i hy n v
    cases n with
    | nil => exact absurd rfl hn'.1
    | cons c n =>
      have h1 : c ≠ '-' := fun k => hn'.2.1 (by rw [k]; rfl)
      have h2 : c ≠ '=' := fun k => hn'.2.2 (by rw [k]; simp)
      rw [name (.unknown hh hn' hv h) hy c (n ++ v) hh h1 h2 (by rw [List.append_assoc]; rfl),
        name k hy c (n ++ v) hh h1 h2 (by rw [List.append_assoc]; rfl)]
  | equals =>
    generalize ha : '-' :: '=' :: _ = a at k
    cases k with
    | equals => injection ha with _ ha; injection ha with _ ha; rw [ha]
    | equals2 => injection ha with _ ha; injection ha with ha; exact absurd ha (by decide)
    | hyphens => injection ha with _ ha; injection ha with ha; exact absurd ha (by decide)
    | help h =>
      obtain ⟨hy, n, v, rfl | rfl, rfl | rfl, hv, rfl⟩ := h <;> (injection ha with _ ha; injection ha with ha; exact absurd ha (by decide))
    | unknown hh hn' hv h =>
      rename_i hy n v
      cases n with
      | nil => exact absurd rfl hn'.1
      | cons c n =>
        rcases hh with rfl | rfl <;> (injection ha with _ ha; injection ha with ha _)
        · exact absurd (by rw [ha]; simp) hn'.2.2
        · exact absurd ha (by decide)
  | equals2 =>
    generalize ha : '-' :: '-' :: '=' :: _ = a at k
    cases k with
    | equals => injection ha with _ ha; injection ha with ha; exact absurd ha (by decide)
    | equals2 => injection ha with _ ha; injection ha with _ ha; injection ha with _ ha; rw [ha]
    | hyphens => injection ha with _ ha; injection ha with _ ha; injection ha with ha; exact absurd ha (by decide)
    | help h =>
      obtain ⟨hy, n, v, rfl | rfl, rfl | rfl, hv, rfl⟩ := h
      · injection ha with _ ha; injection ha with ha; exact absurd ha (by decide)
      · injection ha with _ ha; injection ha with ha; exact absurd ha (by decide)
      · injection ha with _ ha; injection ha with _ ha; injection ha with ha; exact absurd ha (by decide)
      · injection ha with _ ha; injection ha with _ ha; injection ha with ha; exact absurd ha (by decide)
    | unknown hh hn' hv h =>
      rename_i hy n v
      cases n with
      | nil => exact absurd rfl hn'.1
      | cons c n =>
        rcases hh with rfl | rfl
        · injection ha with _ ha; injection ha with ha _
          exact absurd (by rw [← ha]; rfl) hn'.2.1
        · injection ha with _ ha; injection ha with _ ha; injection ha with ha _
          exact absurd (by rw [ha]; simp) hn'.2.2
  | hyphens =>
    generalize ha : '-' :: '-' :: '-' :: _ = a at k
    cases k with
    | equals => injection ha with _ ha; injection ha with ha; exact absurd ha (by decide)
    | equals2 => injection ha with _ ha; injection ha with _ ha; injection ha with ha; exact absurd ha (by decide)
    | hyphens => injection ha with _ ha; injection ha with _ ha; injection ha with _ ha; rw [ha]
    | help h =>
      obtain ⟨hy, n, v, rfl | rfl, rfl | rfl, hv, rfl⟩ := h
      · injection ha with _ ha; injection ha with ha; exact absurd ha (by decide)
      · injection ha with _ ha; injection ha with ha; exact absurd ha (by decide)
      · injection ha with _ ha; injection ha with _ ha; injection ha with ha; exact absurd ha (by decide)
      · injection ha with _ ha; injection ha with _ ha; injection ha with ha; exact absurd ha (by decide)
    | unknown hh hn' hv h =>
      rename_i hy n v
      cases n with
      | nil => exact absurd rfl hn'.1
      | cons c n =>
        rcases hh with rfl | rfl
        · injection ha with _ ha; injection ha with ha _
          exact absurd (by rw [← ha]; rfl) hn'.2.1
        · injection ha with _ ha; injection ha with _ ha; injection ha with ha _
          exact absurd (by rw [← ha]; rfl) hn'.2.1

/-! ### The loop -/

/-- A loop that passes over good arguments. -/
theorem complaint_iff {St : Type} {usage : Str} {Good : Str → Prop} {Bad : Str → Str → Prop} {Crash : Str → Prop}
    {loop : St → List Str → Str} {cmd : List Str → Str} (s0 : St)
    (hc : ∀ as, cmd as = match flagParseM usage as with | (.exit _, t) => t | (.args bs, _) => loop s0 bs)
    (hnil : ∀ st, loop st [] = [])
    (hgood : ∀ {a} st as, Good a → ∃ st', loop st (a :: as) = loop st' as)
    (hbad : ∀ {a t} st as, Bad a t → loop st (a :: as) = c! "Failed to parse EDTF string '" ++ a ++ c! "', " ++ t ++ c! "\n")
    (hcrash : ∀ {a} st as, Crash a → loop st (a :: as) = [])
    (all : ∀ a, Good a ∨ (∃ t, Bad a t) ∨ Crash a) (as : List Str) (t : Str) :
    cmd as = t ↔ Complaint usage Good Bad Crash as t := by
  have skip : ∀ (pre : List Str) st bs, (∀ c ∈ pre, Good c) → ∃ st', loop st (pre ++ bs) = loop st' bs := by
    intro pre
    induction pre with
    | nil => intro st bs _; exact ⟨st, rfl⟩
    | cons a pre ih =>
      intro st bs h
      obtain ⟨st', e⟩ := hgood st (pre ++ bs) (h a List.mem_cons_self)
      obtain ⟨st'', e'⟩ := ih st' bs (fun c hc => h c (List.mem_cons_of_mem _ hc))
      exact ⟨st'', by rw [List.cons_append, e, e']⟩
  have find : ∀ bs : List Str, (∀ b ∈ bs, Good b) ∨ ∃ pre b post, bs = pre ++ b :: post ∧ (∀ c ∈ pre, Good c) ∧ ((∃ t, Bad b t) ∨ Crash b) := by
    intro bs
    induction bs with
    | nil => exact .inl nofun
    | cons a bs ih =>
      rcases all a with h | h
      · rcases ih with k | ⟨pre, b, post, rfl, h1, h2⟩
        · exact .inl (by simpa using ⟨h, k⟩)
        · exact .inr ⟨a :: pre, b, post, rfl, by simpa using ⟨h, h1⟩, h2⟩
      · exact .inr ⟨[], a, bs, rfl, nofun, h⟩
  have args : ∀ {bs}, Operands as (.inl bs) → cmd as = loop s0 bs := by
    intro bs h
    have e := ((operands_iff as).1 bs).2 h
    rw [← flagParseM_fst usage] at e
    rw [hc]
    cases k : flagParseM usage as with
    | mk x y => rw [k] at e; simp only at e; subst e; rfl
  have back : ∀ {u}, Complaint usage Good Bad Crash as u → cmd as = u := by
    intro u h
    cases h with
    | flag e h =>
      subst e
      obtain ⟨h1, h2⟩ := flagText_hyphened h
      obtain ⟨n, t', e, h'⟩ := flag_exit usage _ _ h1 h2
      rw [hc, e, flagText_unique h h']
    | none h k =>
      rename_i bs
      rw [args h]
      obtain ⟨st', e⟩ := skip bs s0 [] k
      rw [List.append_nil] at e
      rw [e, hnil]
    | error h e k hb =>
      subst e
      rw [args h]
      obtain ⟨st', e⟩ := skip _ s0 _ k
      rw [e, hbad _ _ hb]
    | crash h e k hb =>
      subst e
      rw [args h]
      obtain ⟨st', e⟩ := skip _ s0 _ k
      rw [e, hcrash _ _ hb]
  refine ⟨?_, back⟩
  rintro rfl
  have one : ∃ u, Complaint usage Good Bad Crash as u := by
    cases e : flagParse as with
    | args bs =>
      have h := ((operands_iff as).1 bs).1 e
      rcases find bs with k | ⟨pre, b, post, e', k, ⟨t, hb⟩ | hb⟩
      · exact ⟨_, .none h k⟩
      · exact ⟨_, .error h e' k hb⟩
      · exact ⟨_, .crash h e' k hb⟩
    | exit n =>
      have h := ((operands_iff as).2 n).1 e
      cases h with
      | help h => exact ⟨_, .flag rfl (.help h)⟩
      | flag h h1 h2 =>
        obtain ⟨_, t, -, ht⟩ := flag_exit usage _ [] h h1
        exact ⟨_, .flag rfl ht⟩
  obtain ⟨u, hu⟩ := one
  rw [back hu]
  exact hu

/-! ### Lines -/

theorem last_app {s t : Str} (h : t ≠ []) (k : t.getLast? ≠ some '\n') : (s ++ t).getLast? ≠ some '\n' := by
  rw [List.getLast?_append]
  cases e : t.getLast? with
  | none => exact absurd (List.getLast?_eq_none_iff.1 e) h
  | some c => rw [e] at k; exact k

theorem dateText_last {s t : Str} (h : DateText s t) : t.getLast? ≠ some '\n' := by
  cases h with
  | negative => decide
  | other _ _ _ _ _ _ ht =>
    cases ht with
    | calendar => decide
    | _ => exact last_app (by simp) (by decide)

theorem exp_last {es : List Nat} {t : Str} (h : ExpText es t) : t.getLast? ≠ some '\n' := by
  cases h with
  | exponent => exact last_app (by simp) (by decide)
  | float => decide

theorem known_last {e : Err} {t : Str} (h : KnownText e t) : t.getLast? ≠ some '\n' := by
  cases h <;> exact last_app (by simp) (by decide)

theorem errorText_last {s t : Str} (h : ErrorText s t) : t.getLast? ≠ some '\n' := by
  rcases h with ⟨e, -, h⟩ | h
  · exact known_last h
  · cases h with
    | single _ _ _ _ _ _ hd => exact dateText_last hd
    | time _ _ h => cases h <;> exact last_app (by simp) (by decide)
    | left _ _ _ _ _ hd => exact dateText_last hd
    | right _ _ _ _ _ _ hd => exact dateText_last hd
    | lastWinter => decide
    | lastWinterName => decide
    | exponential _ _ _ _ _ _ _ _ _ _ _ ht => exact exp_last ht
    | sigExponential _ _ _ _ _ _ _ _ _ _ _ _ _ ht => exact exp_last ht
    | setLeast _ _ _ _ _ _ _ _ _ _ _ hd => exact dateText_last hd
    | setGreatest _ _ _ _ _ _ _ _ _ _ _ _ _ hd => exact dateText_last hd

theorem line_once {a t : Str} (h : t.getLast? ≠ some '\n') :
    logLine (c! "Failed to parse EDTF string '" ++ a ++ c! "', " ++ t) = c! "Failed to parse EDTF string '" ++ a ++ c! "', " ++ t ++ c! "\n" := by
  unfold logLine
  rw [if_neg]
  cases t with
  | nil => rw [List.append_nil]; exact last_app (by simp) (by decide)
  | cons c t => exact last_app (by simp) h

/-! ### The tools -/

theorem parseLoopM_run (out : Str) (first : Bool) (as : List Str) : (parseLoopM out first as).run = parseLoop out first as := by
  induction as generalizing out first with
  | nil => rfl
  | cons a as ih =>
    unfold parseLoopM parseLoop
    rcases parseStringM_cases a with ⟨d, h, k⟩ | ⟨f, h, k⟩ | ⟨h, k⟩
    · rw [h, k]; exact ih _ _
    · rw [h, k]
    · rw [h, k]

theorem matchesLoopM_run (out : Str) (as : List Str) : (matchesLoopM out as).run = matchesLoop out as := by
  induction as generalizing out with
  | nil => rfl
  | cons a as ih =>
    unfold matchesLoopM matchesLoop
    cases matchesStr a with
    | ok p => exact ih _
    | err e => rfl
    | panic => rfl

theorem exit_or_args {usage : Str} {as : List Str} {g : List Str → Outcome} {h : List Str → Run} (k : ∀ bs, (g bs).run = h bs) :
    (match flagParseM usage as with | (.exit n, t) => (⟨⟨[], n⟩, t⟩ : Outcome) | (.args bs, _) => g bs).run =
      match flagParse as with | .exit n => ⟨[], n⟩ | .args bs => h bs := by
  rw [← flagParseM_fst usage as]
  cases flagParseM usage as with
  | mk x y =>
    cases x with
    | exit n => rfl
    | args bs => exact k bs

/-- C80: with standard error left out, the runs are those of the tools. -/
theorem C80_run (name : Str) (as : List Str) :
    (cmdParseM name as).run = cmdParse as ∧ (cmdMatchesM name as).run = cmdMatches as ∧ (cmdWasiM name as).run = cmdWasi as :=
  ⟨exit_or_args fun _ => parseLoopM_run _ _ _, exit_or_args fun _ => matchesLoopM_run _ _, exit_or_args fun _ => rfl⟩

theorem exit_stderr {usage : Str} {as : List Str} {g : List Str → Outcome} :
    (match flagParseM usage as with | (.exit n, t) => (⟨⟨[], n⟩, t⟩ : Outcome) | (.args bs, _) => g bs).stderr =
      match flagParseM usage as with | (.exit _, t) => t | (.args bs, _) => (g bs).stderr := by
  cases flagParseM usage as with
  | mk x y => cases x <;> rfl

/-- C80, cmd/parse: what is written to standard error for every list of arguments. -/
theorem C80_parse (name : Str) (as : List Str) (t : Str) : (cmdParseM name as).stderr = t ↔ ParseComplaint name as t := by
  refine complaint_iff (cmd := fun as => (cmdParseM name as).stderr) (loop := fun st bs => (parseLoopM st.1 st.2 bs).stderr) (c! "[", true)
    (fun as => ?_) (fun _ => rfl) ?_ ?_ ?_ ?_ as t
  · exact exit_stderr
  · intro a st bs h
    obtain ⟨d, h⟩ := (C54_language a).2 h
    refine ⟨(st.1 ++ (if st.2 then [] else c! ",") ++ d.marshal, false), ?_⟩
    show (parseLoopM _ _ _).stderr = _
    rw [parseLoopM, told_ok h]
  · intro a t st bs h
    obtain ⟨f, k, rfl⟩ := (C79_text _ _).2 h
    show (parseLoopM _ _ _).stderr = _
    rw [parseLoopM, k]
    exact line_once (errorText_last h)
  · intro a st bs h
    show (parseLoopM _ _ _).stderr = _
    rw [parseLoopM, told_panic ((C63_panic _).2 h)]
  · intro a
    rcases parseStringM_cases a with ⟨d, -, k⟩ | ⟨f, h, -⟩ | ⟨-, k⟩
    · exact .inl ((C54_language a).1 ⟨d, k⟩)
    · exact .inr (.inl ⟨f.text, (C79_text _ _).1 ⟨f, h, rfl⟩⟩)
    · exact .inr (.inr ((C63_panic a).1 k))

theorem answers_only_err {d : Err} {n : Int} {l : List (Prop × Str)} {e : Err} (h : First (.err d) (answers n l) (.err e)) : e = d := by
  induction l with
  | nil => cases h; rfl
  | cons p l ih =>
    cases h with
    | next _ k => exact ih k

theorem match_known {s : Str} {e : Err} (h : MatchIs s (.err e)) : ∃ t, KnownText e t := by
  cases h with
  | level0 _ k => rw [answers_only_err k]; exact ⟨_, .invalid _ _⟩
  | level1 _ _ k => rw [answers_only_err k]; exact ⟨_, .invalid _ _⟩
  | level2 _ _ _ k => rw [answers_only_err k]; exact ⟨_, .invalid _ _⟩
  | none => exact ⟨_, .unrecognized _ _⟩

/-- C80, cmd/matches: what is written to standard error for every list of arguments. -/
theorem C80_match (name : Str) (as : List Str) (t : Str) : (cmdMatchesM name as).stderr = t ↔ MatchComplaint name as t := by
  refine complaint_iff (cmd := fun as => (cmdMatchesM name as).stderr) (loop := fun st bs => (matchesLoopM st bs).stderr) []
    (fun as => ?_) (fun _ => rfl) ?_ ?_ ?_ ?_ as t
  · exact exit_stderr
  · rintro a st bs ⟨p, h⟩
    refine ⟨st ++ a ++ c! " level " ++ itoa p.1 ++ c! " (" ++ p.2 ++ c! ")\n", ?_⟩
    show (matchesLoopM _ _).stderr = _
    rw [matchesLoopM, (matchIs_iff _ _).2 h]
  · rintro a t st bs ⟨e, h, ht⟩
    show (matchesLoopM _ _).stderr = _
    rw [matchesLoopM, (matchIs_iff _ _).2 h]
    simp only [(known_text.1 ht).1, Option.getD_some]
    exact line_once (known_last ht)
  · exact fun _ _ h => h.elim
  · intro a
    cases h : matchesStr a with
    | ok p => exact .inl ⟨p, (matchIs_iff _ _).1 h⟩
    | err e =>
      have h := (matchIs_iff _ _).1 h
      obtain ⟨t, ht⟩ := match_known h
      exact .inr (.inl ⟨t, e, h, ht⟩)
    | panic => exact absurd h (C66_total a)

/-- C80, cmd/parse-wasi: what is written to standard error for every list of arguments. -/
theorem C80_wasi (name : Str) (as : List Str) (t : Str) : (cmdWasiM name as).stderr = t ↔ WasiComplaint name as t :=
  complaint_iff (cmd := fun as => (cmdWasiM name as).stderr) (loop := fun (_ : Unit) _ => []) ()
    (fun _ => exit_stderr) (fun _ => rfl) (fun _ _ _ => ⟨(), rfl⟩) (fun _ _ h => h.elim) (fun _ _ _ => rfl) (fun _ => .inl trivial) as t

/-- A flag, help, a date and an error; and the tool for WASI, which says nothing. -/
example : (cmdParseM (c! "parse") [c! "-1985"]).stderr =
      c! "flag provided but not defined: -1985\nParse one or more EDTF strings and return a list of JSON-encode edtf.EDTFDate objects.\nUsage:\n\t parse edtf_string(N) edtf_string(N)\n" ∧
    (cmdMatchesM (c! "matches") [c! "1985", c! "tomorrow"]).stderr =
      c! "Failed to parse EDTF string 'tomorrow', Unrecognized EDTF string 'tomorrow' (Invalid or unsupported EDTF string)\n" ∧
    (cmdParseM (c! "parse") [c! "1985", c! "1985-04-31"]).stderr = c! "Failed to parse EDTF string '1985-04-31', Invalid days for month\n" ∧
    (cmdWasiM (c! "wasi") [c! "tomorrow"]).stderr = [] ∧ (cmdWasiM (c! "wasi") [c! "--h=1"]).stderr = c! "Usage of wasi:\n" := by decide +kernel

example : ParseComplaint (c! "parse") [c! "1985", c! "tomorrow"]
    (c! "Failed to parse EDTF string 'tomorrow', Unrecognized EDTF string 'tomorrow' (Invalid or unsupported EDTF string)\n") :=
  (C80_parse _ _ _).1 (by decide +kernel)
example : FlagText (c! "--=1") (c! "bad flag syntax: --=1\n") := .equals2

end EDTF
