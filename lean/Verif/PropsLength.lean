/- C92: the lengths of accepted texts. -/
import Verif.SpecLength
import Verif.LemmasSame2
namespace EDTF
open Spec

theorem deco_length {q : Deco} (w : Str) : (q.text w).length ≤ w.length + 1 := by
  cases q <;> simp [Deco.text]

theorem endpoint_length {e : Endpoint} (h : e.shape) : e.text.length ≤ 14 := by
  obtain ⟨⟨neg, yy, tl⟩, qy, qm, qd⟩ := e
  obtain ⟨⟨hl, -, hx⟩, -⟩ := h
  have h1 := deco_length (q := qy) (if neg then '-' :: yy else yy)
  have h2 : (if neg then '-' :: yy else yy).length ≤ 5 := by
    simp only at hl
    cases neg <;> simp [hl]
  cases tl with
  | none => simp only [Endpoint.text, List.append_nil]; omega
  | month m =>
    have h3 := deco_length (q := qm) m
    have := hx.1
    simp only [Endpoint.text, List.length_append, List.length_cons]; omega
  | day m d =>
    have h3 := deco_length (q := qm) m
    have h4 := deco_length (q := qd) d
    have := hx.1
    have := hx.2.2.1
    simp only [Endpoint.text, List.length_append, List.length_cons]; omega

theorem dots_length {t : Str} (h : t = [] ∨ t = c! "..") : t.length ≤ 2 := by
  rcases h with rfl | rfl <;> simp

theorem signed_length (b : Bool) (n : Nat) : (signed b (pad4 n)).length ≤ 5 := by
  cases b <;> simp [signed, pad4_length]

theorem pad2_length' (n : Nat) : (pad2 n).length = 2 := rfl

theorem date_length (x : Date0) : x.text.length ≤ 14 := by
  rw [← dateE_text]
  exact endpoint_length (dateE_ok x).1

/-- An accepted text of more than 29 characters is a set, a season by name, a year with an exponent
or a year with significant digits. -/
theorem C92_bounded {s : Str} {d : EDTFDate} (hs : parseString s = .ok d) (hl : 29 < s.length) : ∃ k : Unbounded, k.Has s := by
  have h := (C54_language _).1 ⟨d, hs⟩
  have p4 := pad4_length
  have p2 := pad2_length'
  cases h with
  | unknown => simp at hl
  | opened => simp at hl
  | date x h => have := date_length x; omega
  | time neg y m d hh mi ss z hy V k1 k2 k3 hz =>
    have : z.text.length ≤ 6 := by cases z <;> simp [Zone.text, p2]
    have : (if neg = true then ['-'] else []).length ≤ 1 := by cases neg <;> simp
    simp only [clockText, hmsText, List.length_append, List.length_cons, List.length_nil, p4, p2] at hl
    omega
  | interval a b ha hb ra rb =>
    have := endpoint_length ha.1
    have := endpoint_length hb.1
    simp only [List.length_append, List.length_cons] at hl
    omega
  | startless t ht x h =>
    have := dots_length ht
    have := date_length x
    simp only [List.length_append, List.length_cons] at hl
    omega
  | endless neg n h t ht =>
    have := dots_length ht
    have := signed_length neg n
    simp only [List.length_append, List.length_cons] at hl
    omega
  | qualifiedYear neg n h q hq =>
    have := signed_length neg n
    simp only [List.length_append, List.length_cons, List.length_nil] at hl
    omega
  | single e h hn hq hx => have := endpoint_length h.1; omega
  | month neg n m hn h1 h2 hy t ht =>
    have := signed_length neg n
    have : t.length ≤ 6 := by
      cases ht with
      | ended _ t ht => have := dots_length ht; simp only [List.length_cons]; omega
      | dayEnded _ d d1 d2 t ht => have := dots_length ht; simp only [List.length_cons, List.length_append, p2]; omega
      | _ => simp [p2]
    simp only [List.length_append, List.length_cons, p2] at hl
    omega
  | season neg n hn z hy hz =>
    have := signed_length neg n
    simp only [List.length_append, List.length_cons, p2] at hl
    omega
  | seasonName z w t1 t2 n hw h1 h2 hn hz => exact ⟨.seasonName, z, w, t1, _, hw, h1, rfl⟩
  | letter neg n h =>
    have := signed_length neg n
    simp only [List.length_cons] at hl
    omega
  | exponential yc ec hy he neg ms es hm' hes v hv h =>
    refine ⟨.exponent, yc, ec, signed neg (ms.map dig), es.map dig, hy, he, ?_⟩
    cases neg <;> simp [signed]
  | significant t v h ds hd hk => exact ⟨.significant, t, _, rfl⟩
  | grouping n hn g hg =>
    simp only [List.length_append, List.length_cons, p4, p2] at hl
    omega
  | set o c hb cs hc hm' => exact ⟨.set, o, c, _, hb, rfl⟩

/-- The bound is exact. -/
example : ∃ s d, parseString s = .ok d ∧ s.length = 29 ∧ ¬ ∃ k : Unbounded, k.Has s := by
  refine ⟨c! "?-2004-~06-%11/?-2004-~06-%11", _, rfl, by decide, ?_⟩
  rintro ⟨k, h⟩
  cases k with
  | set =>
    obtain ⟨o, c, t, hb, e⟩ := h
    have e := (List.cons.inj e).1
    subst e
    exact absurd hb.1 (by decide)
  | seasonName =>
    obtain ⟨z, w, t, u, -, -, e⟩ := h
    exact absurd (show ',' ∈ c! "?-2004-~06-%11/?-2004-~06-%11" by rw [e]; simp) (by decide)
  | exponent =>
    obtain ⟨y, e', a, b, hy, -, e⟩ := h
    have e := (List.cons.inj e).1
    subst e
    exact absurd hy (by decide)
  | significant =>
    obtain ⟨a, b, e⟩ := h
    exact absurd (show 'S' ∈ c! "?-2004-~06-%11/?-2004-~06-%11" by rw [e]; simp) (by decide)

theorem value_zeros (n : Nat) (ds : List Nat) : value10 (List.replicate n 0 ++ ds) = value10 ds := by
  induction n with
  | zero => rfl
  | succ n ih => exact ih

theorem digits_zeros (n : Nat) {ds : List Nat} (h : Digits ds) : Digits (List.replicate n 0 ++ ds) := by
  refine ⟨fun e => h.1 (List.append_eq_nil_iff.1 e).2, fun d hd => ?_⟩
  rcases List.mem_append.1 hd with k | k
  · rw [(List.mem_replicate.1 k).2]; decide
  · exact h.2 d k

/-- There are accepted texts of these four kinds that are longer than any number. -/
theorem C92_unbounded (k : Unbounded) (n : Nat) : ∃ s d, parseString s = .ok d ∧ n < s.length ∧ k.Has s := by
  have acc : ∀ {s : Str}, Accepted s → n < s.length → k.Has s → ∃ s d, parseString s = .ok d ∧ n < s.length ∧ k.Has s := by
    intro s h1 h2 h3
    obtain ⟨d, hd⟩ := (C54_language s).2 h1
    exact ⟨s, d, hd, h2, h3⟩
  cases k with
  | set =>
    have hr : RunOk [⟨false, 1985, .none⟩] := ⟨by simp, by simp [Date0.shaped]⟩
    have hc : ChunksOk (List.replicate (n + 1) (.run [⟨false, 1985, .none⟩])) := by
      have all : ∀ c ∈ List.replicate (n + 1) (Chunk.run [⟨false, 1985, .none⟩]), c = .run [⟨false, 1985, .none⟩] := fun c hc => (List.mem_replicate.1 hc).2
      refine ⟨fun c hc => by rw [all c hc]; exact hr, ⟨_, rfl, rfl⟩, fun c hc => ?_, fun c hc => ?_⟩
      · rw [all c (List.mem_of_mem_drop hc)]; rfl
      · rw [all c (List.dropLast_subset _ hc)]; rfl
    refine acc (.set '[' ']' (by decide) _ hc ?_) ?_ ⟨'[', ']', _, by decide, rfl⟩
    · have hm : ∀ t ∈ (List.replicate (n + 1) (Chunk.run [⟨false, 1985, .none⟩])).flatMap Chunk.members, t = c! "1985" := by
        intro t ht
        obtain ⟨c, hc, hm⟩ := List.mem_flatMap.1 ht
        rw [(List.mem_replicate.1 hc).2] at hm
        exact List.mem_singleton.1 hm
      have h0 : c! "1985" ∈ (List.replicate (n + 1) (Chunk.run [⟨false, 1985, .none⟩])).flatMap Chunk.members :=
        List.mem_flatMap.2 ⟨.run [⟨false, 1985, .none⟩], by simp [List.replicate_succ], by decide⟩
      have le : TextLe (c! "1985") (c! "1985") := .eq _ _ _ (.eq _ _ _ (.eq _ _ _ (.eq _ _ _ (.nil _))))
      have rd : Reads (c! "1985") := by
        have hz : (⟨false, 1985, .none⟩ : Date0).ok := ⟨by decide, trivial⟩
        exact ⟨dateE ⟨false, 1985, .none⟩, ⟨(dateE_ok _).1, _, _, _, _, _, _, date_runs hz⟩, by rw [dateE_text]; decide⟩
      exact ⟨_, _, h0, h0, fun t ht => by rw [hm t ht]; exact ⟨le, le⟩, rd, .inr rd⟩
    · have : ∀ k : Nat, k + 1 ≤ (commaJoin ((List.replicate (k + 1) (Chunk.run [⟨false, 1985, .none⟩])).map Chunk.text)).length := by
        intro k
        induction k with
        | zero => decide
        | succ k ih =>
          rw [List.replicate_succ, List.map_cons, commaJoin_cons _ (by simp [List.replicate_succ])]
          simp only [List.length_append, List.length_cons]
          omega
      have := this n
      simp only [List.length_append, List.length_cons]
      omega
  | seasonName =>
    have hb : Blank (List.replicate n ' ') := fun c hc => .inl (List.mem_replicate.1 hc).2
    have hw : Folded Season.spring.word (c! "spring") := by decide
    refine acc (.seasonName .spring (c! "spring") (List.replicate n ' ') [] 1985 hw hb (fun _ h => by cases h) (by decide) (by simp)) ?_
      ⟨.spring, _, _, _, hw, hb, rfl⟩
    simp
    omega
  | exponent =>
    have he : Digits (List.replicate n 0 ++ [2]) := digits_zeros n ⟨by simp, by decide⟩
    have hv : ExpYear false [1, 7] (List.replicate n 0 ++ [2]) 1700 := by
      rw [ExpYear, value_zeros]
      exact ⟨by decide, by decide, by decide, 1700, .inl (by decide), by decide⟩
    refine acc (.exponential 'Y' 'E' (by decide) (by decide) false [1, 7] _ ⟨by simp, by decide⟩ he 1700 hv (by decide)) ?_
      ⟨'Y', 'E', c! "17", _, by decide, by decide, rfl⟩
    simp [signed]
    omega
  | significant =>
    have hd : Digits (List.replicate n 0 ++ [2]) := digits_zeros n ⟨by simp, by decide⟩
    refine acc (.significant (c! "1985") 1985 (.date false 1985 (by decide)) _ hd (.inl ⟨by decide, by decide, ?_⟩)) ?_ ⟨c! "1985", _, rfl⟩
    · rw [value_zeros]; decide
    · simp
      omega

example : ∃ s d, parseString s = .ok d ∧ 1000000 < s.length ∧ Unbounded.seasonName.Has s := C92_unbounded .seasonName 1000000

end EDTF
