/- C107: TimeWithYMD and TimeWithYMDString on bytes. -/
import Verif.TimeBytes
import Verif.SpecTimeBytes
import Verif.PropsMessageYmd
import Verif.PropsBytesYmd
import Verif.PropsFloat2
namespace EDTF
open Spec

/-! ### Reading -/

theorem quote_timeBytes (s : Str) : quoteTimeBytes s = bytesQuoted s := by
  unfold quoteTimeBytes bytesQuoted
  congr 3
  funext c
  by_cases h : c = '"' ∨ c = '\\'
  · rw [if_pos h, if_pos h]
  · rw [if_neg h, if_neg h]
    by_cases k : 32 ≤ c.toNat ∧ c.toNat < 128
    · rw [if_pos k, if_neg (by omega)]
    · rw [if_neg k, if_pos (by omega)]
      unfold byteText
      rw [← hexByte_eq (UInt8.ofNat c.toNat).toNat (UInt8.ofNat c.toNat).toNat_lt]
      congr 2
      exact UInt8.ofNat_toNat.symm

/-- As `timeParseBytes`, with the error as a text. -/
def timeParseW (layout : List Tok) (s : Str) : Told Int :=
  match parseToksBytes layout {} s with
  | .inl f =>
    if f.day < 1 ∨ f.day > daysIn f.month f.year then .says (timeErrorBytes layout s (outOfRange (c! "day")))
    else .ok (goDate f.year f.month f.day f.hour f.min f.sec - f.offset)
  | .inr e => .says (timeErrorBytes layout s e)

theorem timeParseW_bytes (layout : List Tok) (s : Str) : timeParseBytes layout s = (timeParseW layout s).bytes := by
  unfold timeParseBytes timeParseW
  cases parseToksBytes layout {} s with
  | inr e => rfl
  | inl f =>
    simp only
    by_cases h : f.day < 1 ∨ f.day > daysIn f.month f.year
    · rw [if_pos h, if_pos h]; rfl
    · rw [if_neg h, if_neg h]; rfl

theorem timeParseW_ok (layout : List Tok) (s : Str) (n : Int) : timeParseW layout s = .ok n ↔ timeParseM layout s = .ok n := by
  have key : ∀ (ts : List Tok) (F : Fields) (s : Str), (∃ G, parseToksBytes ts F s = .inl G ∧ parseToksM ts F s = .inl G) ∨
      ∃ e e', parseToksBytes ts F s = .inr e ∧ parseToksM ts F s = .inr e' := by
    intro ts
    induction ts with
    | nil =>
      intro F s
      unfold parseToksBytes parseToksM
      by_cases h : s.isEmpty = true
      · rw [if_pos h, if_pos h]; exact .inl ⟨_, rfl, rfl⟩
      · rw [if_neg h, if_neg h]; exact .inr ⟨_, _, rfl, rfl⟩
    | cons t ts ih =>
      intro F s
      unfold parseToksBytes parseToksM
      cases parseTok t F s with
      | none => exact .inr ⟨_, _, rfl, rfl⟩
      | some q => exact ih _ _
  unfold timeParseW timeParseM
  rcases key layout {} s with ⟨G, e1, e2⟩ | ⟨e, e', e1, e2⟩
  · rw [e1, e2]
    simp only
    by_cases h : G.day < 1 ∨ G.day > daysIn G.month G.year
    · rw [if_pos h, if_pos h]; constructor <;> (intro k; cases k)
    · rw [if_neg h, if_neg h]
  · rw [e1, e2]
    constructor <;> (intro k; cases k)

/-- The end of an error of package time. -/
def faultTailB (layout : Str) : TimeFault → Str
  | .bad elem rest => c! " as " ++ bytesQuoted layout ++ c! ": cannot parse " ++ bytesQuoted rest ++ c! " as " ++ bytesQuoted elem
  | .message m => m

theorem bytesStop_iff (layout : Str) (ps : List TimePart) (F : Fields) (s w : Str) :
    BytesStop layout ps s w ↔ ∃ e, parseToksBytes (ps.map tokOf) F s = .inr e ∧ w = faultTailB layout e := by
  constructor
  · intro h
    induction h generalizing F with
    | here p ps s h1 h2 =>
      refine ⟨.bad p.sign s, ?_, rfl⟩
      rw [List.map_cons, parseToksBytes]
      cases e : parseTok (tokOf p) F s with
      | none => simp only; rw [bad_fault h1 h2]
      | some q =>
        obtain ⟨n, hn, -⟩ := (tok_takes p F q.1 s q.2).1 e
        exact absurd hn (h1 _ _)
    | over p ps s w h =>
      refine ⟨outOfRange w, ?_, rfl⟩
      rw [List.map_cons, parseToksBytes, (over_fault h F).1]
      simp only
      rw [(over_fault h F).2]
    | extra s h =>
      refine ⟨.message (c! ": extra text: " ++ quoteTimeBytes s), ?_, by rw [quote_timeBytes]; rfl⟩
      rw [List.map_nil, parseToksBytes, if_neg (by simpa using h)]
    | later p ps s rest n h w k ih =>
      obtain ⟨e, he, hw⟩ := ih (setPart p n F)
      refine ⟨e, ?_, hw⟩
      rw [List.map_cons, parseToksBytes, (tok_takes p F _ s rest).2 ⟨n, h, rfl⟩]
      exact he
  · rintro ⟨e, he, rfl⟩
    induction ps generalizing F s with
    | nil =>
      rw [List.map_nil, parseToksBytes] at he
      by_cases hs : s = []
      · subst hs; cases he
      · rw [if_neg (by simpa using hs)] at he
        injection he with he
        rw [← he, quote_timeBytes]
        exact .extra s hs
    | cons p ps ih =>
      rw [List.map_cons, parseToksBytes] at he
      cases e' : parseTok (tokOf p) F s with
      | some q =>
        rw [e'] at he
        obtain ⟨n, hn, -⟩ := (tok_takes p F q.1 s q.2).1 e'
        exact .later p ps s q.2 n hn _ (ih _ _ he)
      | none =>
        rw [e'] at he
        simp only at he
        injection he with he
        have h1 : ∀ n rest, ¬ Takes p s n rest := by
          intro n rest h
          rw [(tok_takes p F _ s rest).2 ⟨n, h, rfl⟩] at e'
          cases e'
        by_cases ho : ∃ w, Over p s w
        · obtain ⟨w, ho⟩ := ho
          rw [← he, (over_fault ho F).2]
          exact .over p ps s w ho
        · have h2 : ∀ w, ¬ Over p s w := fun w h => ho ⟨w, h⟩
          rw [← he, bad_fault h1 h2]
          exact .here p ps s h1 h2

theorem takesBytes_iff (ps : List TimePart) (F G : Fields) (s : Str) :
    parseToksBytes (ps.map tokOf) F s = .inl G ↔ ∃ ns, TakesAll ps s ns ∧ G = setParts ps ns F := by
  constructor
  · intro h
    induction ps generalizing F s with
    | nil =>
      rw [List.map_nil, parseToksBytes] at h
      by_cases hs : s = []
      · subst hs
        injection h with h
        exact ⟨[], .nil, h.symm⟩
      · rw [if_neg (by simpa using hs)] at h; cases h
    | cons p ps ih =>
      rw [List.map_cons, parseToksBytes] at h
      cases e : parseTok (tokOf p) F s with
      | none => rw [e] at h; cases h
      | some q =>
        rw [e] at h
        obtain ⟨n, hn, hq⟩ := (tok_takes p F q.1 s q.2).1 e
        obtain ⟨ns, k, hG⟩ := ih _ _ h
        exact ⟨n :: ns, .cons p ps s q.2 n ns hn k, by rw [hG, hq]; rfl⟩
  · rintro ⟨ns, h, rfl⟩
    induction h generalizing F with
    | nil => rfl
    | cons p ps s rest n ns h k ih =>
      rw [List.map_cons, parseToksBytes, (tok_takes p F _ s rest).2 ⟨n, h, rfl⟩]
      exact ih _

theorem instantBytes_iff (s w : Str) : timeParseW layoutDateTime s = .says w ↔ TimeBytesSays s w := by
  have hl : layoutDateTime.flatMap Tok.text = c! "2006-01-02T15:04:05" := by decide
  have ht : ∀ e, timeErrorBytes layoutDateTime s e = c! "parsing time " ++ bytesQuoted s ++ faultTailB (c! "2006-01-02T15:04:05") e := by
    intro e
    cases e with
    | bad p r => simp only [timeErrorBytes, faultTailB, quote_timeBytes, hl, List.append_assoc]
    | message m => simp only [timeErrorBytes, faultTailB, quote_timeBytes, List.append_assoc]
  unfold timeParseW
  cases e : parseToksBytes layoutDateTime {} s with
  | inr x =>
    simp only
    rw [ht, layout_parts] at *
    constructor
    · intro h
      injection h with h; injection h with _ h
      rw [← h]
      exact .stops _ ((bytesStop_iff _ _ {} _ _).2 ⟨x, e, rfl⟩)
    · intro h
      cases h with
      | stops w h =>
        obtain ⟨x', e', rfl⟩ := (bytesStop_iff _ _ {} _ _).1 h
        rw [e] at e'
        injection e' with e'
        rw [e']
      | day y m d ns h hd =>
        have := (takesBytes_iff dateTimeParts {} _ s).2 ⟨_, h, rfl⟩
        rw [e] at this; cases this
  | inl G =>
    simp only
    rw [layout_parts] at e
    obtain ⟨ns, h, rfl⟩ := (takesBytes_iff _ _ _ _).1 e
    obtain ⟨y, m, d, ms, rfl, hm1, hm2, e1, e2, e3⟩ := takes_fields h
    rw [e1, e2, e3, daysIn_eq _ _ hm1 hm2]
    by_cases hd : d = 0 ∨ monthLen y m < d
    · rw [if_pos (by omega), ht]
      constructor
      · intro k
        injection k with k; injection k with _ k
        rw [← k]
        exact .day y m d ms h hd
      · intro k
        cases k with
        | stops w k =>
          obtain ⟨x', e', rfl⟩ := (bytesStop_iff _ _ {} _ _).1 k
          rw [e] at e'; cases e'
        | day => rfl
    · rw [if_neg (by omega)]
      constructor
      · intro k; cases k
      · intro k
        cases k with
        | stops w k =>
          obtain ⟨x', e', rfl⟩ := (bytesStop_iff _ _ {} _ _).1 k
          rw [e] at e'; cases e'
        | day y' m' d' ns' k hd' =>
          have e' := (takesBytes_iff dateTimeParts {} _ s).2 ⟨_, k, rfl⟩
          rw [e] at e'
          injection e' with e'
          obtain ⟨y2, m2, d2, ms2, en, -, -, f1, f2, f3⟩ := takes_fields k
          injection en with n1 en; injection en with _ en; injection en with n2 en; injection en with _ en; injection en with n3 _
          rw [← e', e1] at f1
          rw [← e', e2] at f2
          rw [← e', e3] at f3
          have a1 : y = y' := by omega
          have a2 : m = m' := by omega
          have a3 : d = d' := by omega
          subst a1 a2 a3
          exact absurd hd' hd


end EDTF
