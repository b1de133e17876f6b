/- For C91: the kinds of accepted texts, and sets. -/
import Verif.LemmasSame
namespace EDTF
open Spec

variable {f : Int → Nat → Nat → Int}

/-! ### The kinds of accepted texts -/

/-- None of the signs of intervals, sets and names. -/
def noSign (s : Str) : Bool := s.all (fun c => !(c! "/.,[]{}").contains c)

theorem noSign_append {s t : Str} : noSign (s ++ t) = true ↔ noSign s = true ∧ noSign t = true := by simp [noSign]

theorem noSign_cons {c : Char} {t : Str} : noSign (c :: t) = true ↔ (c! "/.,[]{}").contains c = false ∧ noSign t = true := by simp [noSign]

theorem noSign_of {s : Str} (h : ∀ c ∈ c! "/.,[]{}", c ∉ s) : noSign s = true := by
  unfold noSign
  rw [List.all_eq_true]
  intro c hc
  cases k : (c! "/.,[]{}").contains c with
  | false => rfl
  | true => exact absurd hc (h c (List.contains_iff_mem.1 k))

theorem noSign_not {s : Str} (h : noSign s = true) {c : Char} (hc : c ∈ c! "/.,[]{}") : c ∉ s := by
  intro hm
  have := List.all_eq_true.1 h c hm
  rw [List.contains_iff_mem.2 hc] at this
  cases this

theorem noSign_digits {s : Str} (h : s.all isDig = true) : noSign s = true := by
  refine noSign_of fun c hc hm => ?_
  have := List.all_eq_true.1 h c hm
  have k : c ∈ c! "/.,[]{}" → isDig c = false := (by decide : ∀ c ∈ c! "/.,[]{}", isDig c = false) c
  rw [k hc] at this
  cases this

theorem noSign_pad (n : Nat) : noSign (pad4 n) = true ∧ noSign (pad2 n) = true := ⟨noSign_digits (pad4_all n), noSign_digits (pad2_all n)⟩

theorem noSign_signed {b : Bool} {t : Str} (h : noSign t = true) : noSign (signed b t) = true := by
  cases b
  · exact h
  · exact noSign_cons.2 ⟨by decide, h⟩

theorem noSign_map {ds : List Nat} (h : ∀ d ∈ ds, d < 10) : noSign (ds.map dig) = true := by
  refine noSign_of fun c hc hm => ?_
  obtain ⟨k, hk, e⟩ := List.mem_map.1 hm
  exact (by decide : ∀ k < 10, dig k ∉ c! "/.,[]{}") k (h k hk) (e ▸ hc)

theorem noSign_endpoint {e : Endpoint} (h : e.shape) : noSign e.text = true := by
  refine noSign_of fun c hc => ?_
  exact e_not_mem h ((by decide : ∀ c ∈ c! "/.,[]{}", isDX c = false) c hc) (by rintro rfl; revert hc; decide)
    ((by decide : ∀ c ∈ c! "/.,[]{}", isQ c = false) c hc)

theorem noSign_date (x : Date0) : noSign x.text = true := by
  rw [← dateE_text]
  exact noSign_endpoint (dateE_ok x).1

theorem noSign_q {q : Char} (h : q ∈ c! "?~%") : (c! "/.,[]{}").contains q = false := by
  rcases q_cases h with rfl | rfl | rfl <;> decide

theorem noSign_nil : noSign [] = true := rfl

/-- A set, by its chunks. -/
def IsSet (s : Str) : Prop :=
  ∃ (o c : Char) (cs : List Chunk), Brackets o c ∧ ChunksOk cs ∧ MembersOk (cs.flatMap Chunk.members) ∧ s = o :: (commaJoin (cs.map Chunk.text) ++ [c])

/-- A season by name. -/
def IsNamed (s : Str) : Prop := ∃ (z : Season) (w t1 t2 : Str) (n : Nat), Folded z.word w ∧ Blank t1 ∧ Blank t2 ∧ s = w ++ (t1 ++ ',' :: (t2 ++ pad4 n))

theorem accepted_class {s : Str} (h : Accepted s) : s = [] ∨ s = c! ".." ∨ '/' ∈ s ∨ IsSet s ∨ IsNamed s ∨ noSign s = true := by
  have plain : noSign s = true → s = [] ∨ s = c! ".." ∨ '/' ∈ s ∨ IsSet s ∨ IsNamed s ∨ noSign s = true := fun k => .inr (.inr (.inr (.inr (.inr k))))
  have slash : '/' ∈ s → s = [] ∨ s = c! ".." ∨ '/' ∈ s ∨ IsSet s ∨ IsNamed s ∨ noSign s = true := fun k => .inr (.inr (.inl k))
  cases h with
  | unknown => exact .inl rfl
  | opened => exact .inr (.inl rfl)
  | date x h => exact plain (noSign_date x)
  | time neg y m d hh mi ss z hy V k1 k2 k3 hz =>
    refine plain ?_
    have hzz : noSign z.text = true := by
      cases z with
      | none => rfl
      | utc => rfl
      | hours b a => exact noSign_cons.2 ⟨by cases b <;> decide, (noSign_pad a).2⟩
      | full b a c =>
        exact noSign_cons.2 ⟨by cases b <;> decide, noSign_append.2 ⟨(noSign_pad a).2, noSign_cons.2 ⟨by decide, (noSign_pad c).2⟩⟩⟩
    have q4 := fun n => (noSign_pad n).1
    have q2 := fun n => (noSign_pad n).2
    unfold clockText hmsText
    cases neg <;> simp [noSign_append, noSign_cons, q4, q2, hzz, noSign_nil]
  | interval a b ha hb ra rb => exact slash (by simp)
  | startless t ht x h => exact slash (by simp)
  | endless neg n h t ht => exact slash (by simp)
  | qualifiedYear neg n h q hq => exact plain (noSign_append.2 ⟨noSign_signed (noSign_pad n).1, noSign_cons.2 ⟨noSign_q hq, rfl⟩⟩)
  | single e h hn hq hx => exact plain (noSign_endpoint h.1)
  | month neg n m hn h1 h2 hy t ht =>
    have ns : ∀ {u : Str}, noSign u = true → noSign (signed neg (pad4 n) ++ '-' :: (pad2 m ++ u)) = true := fun hu =>
      noSign_append.2 ⟨noSign_signed (noSign_pad n).1, noSign_cons.2 ⟨by decide, noSign_append.2 ⟨(noSign_pad m).2, hu⟩⟩⟩
    cases ht with
    | qualifier _ q hq => exact plain (ns (noSign_cons.2 ⟨noSign_q hq, rfl⟩))
    | dayQualifier _ d d1 d2 q hq => exact plain (ns (noSign_cons.2 ⟨by decide, noSign_append.2 ⟨(noSign_pad d).2, noSign_cons.2 ⟨noSign_q hq, rfl⟩⟩⟩))
    | ended _ t ht => exact slash (by simp)
    | dayEnded _ d d1 d2 t ht => exact slash (by simp)
    | loose a b h =>
      refine plain (ns (noSign_of ?_))
      obtain ⟨h, -⟩ := h
      have sub : ∀ {x : Char} {l : Str}, x ∈ l → (∀ c ∈ c! "/.,[]{}", c ∉ l) → x ∉ c! "/.,[]{}" := fun hx hl k => hl _ k hx
      intro c hc k
      simp only [List.mem_cons, List.not_mem_nil, or_false] at k
      rcases k with k | k | k
      · subst k; revert hc; decide
      · subst k
        rcases h with ⟨h, -⟩ | ⟨h, -⟩ <;> exact sub h (by decide) hc
      · subst k
        rcases h with ⟨-, h⟩ | ⟨-, h⟩ <;> exact sub h (by decide) hc
  | season neg n hn z hy hz => exact plain (noSign_append.2 ⟨noSign_signed (noSign_pad n).1, noSign_cons.2 ⟨by decide, (noSign_pad _).2⟩⟩)
  | seasonName z w t1 t2 n hw h1 h2 hn hz => exact .inr (.inr (.inr (.inr (.inl ⟨z, w, t1, t2, n, hw, h1, h2, rfl⟩))))
  | letter neg n h => exact plain (noSign_cons.2 ⟨by decide, noSign_signed (noSign_pad n).1⟩)
  | exponential yc ec hy he neg ms es hm' hes v hv h =>
    refine plain (noSign_cons.2 ⟨?_, noSign_signed (noSign_append.2 ⟨noSign_map hm'.2, noSign_cons.2 ⟨?_, noSign_map hes.2⟩⟩)⟩)
    · exact (by decide : ∀ c ∈ c! "Yy", (c! "/.,[]{}").contains c = false) _ hy
    · exact (by decide : ∀ c ∈ c! "Ee", (c! "/.,[]{}").contains c = false) _ he
  | significant t v h ds hd hk =>
    refine plain (noSign_append.2 ⟨?_, noSign_cons.2 ⟨by decide, noSign_map hd.2⟩⟩)
    cases h with
    | date neg n h => exact noSign_signed (noSign_pad n).1
    | letter neg us hu hl => exact noSign_cons.2 ⟨by decide, noSign_signed (noSign_map hu.2)⟩
    | exponential yc ec hy he neg ms es hm' hes _ hv =>
      refine noSign_cons.2 ⟨?_, noSign_signed (noSign_append.2 ⟨noSign_map hm'.2, noSign_cons.2 ⟨?_, noSign_map hes.2⟩⟩)⟩
      · exact (by decide : ∀ c ∈ c! "Yy", (c! "/.,[]{}").contains c = false) _ hy
      · exact (by decide : ∀ c ∈ c! "Ee", (c! "/.,[]{}").contains c = false) _ he
  | grouping n hn g hg => exact plain (noSign_append.2 ⟨(noSign_pad n).1, noSign_cons.2 ⟨by decide, (noSign_pad _).2⟩⟩)
  | set o c hb cs hc hm' => exact .inr (.inr (.inr (.inl ⟨o, c, cs, hb, hc, hm', rfl⟩)))

/-! ### Sets -/

theorem folded_not {v w : Str} (h : Folded v w) {x : Char} (hx : x ≠ 'ſ') (hv : ∀ c ∈ v, c ≠ x ∧ Char.ofNat (c.toNat - 32) ≠ x) : x ∉ w := by
  intro hm
  obtain ⟨hl, hz⟩ := h
  obtain ⟨i, hi, e⟩ := List.getElem_of_mem hm
  have hi' : i < v.length := by omega
  have hp : (v[i], w[i]) ∈ v.zip w := List.mem_iff_getElem.2 ⟨i, by simp; omega, by simp⟩
  have hlow := hv _ (List.getElem_mem hi')
  rcases hz _ hp with k | k | ⟨-, k⟩
  · exact hlow.1 (by rw [← e]; exact k.symm)
  · exact hlow.2 (by rw [← e]; exact k.symm)
  · simp only at k; rw [e] at k; exact hx k

theorem named_noBracket {s : Str} (h : IsNamed s) {o : Char} (ho : o = '[' ∨ o = '{') : o ∉ s := by
  obtain ⟨z, w, t1, t2, n, hw, h1, h2, rfl⟩ := h
  intro hm
  simp only [List.mem_append, List.mem_cons] at hm
  have hb : ∀ {t : Str}, Blank t → o ∉ t := fun hb hm => by
    have := hb _ hm
    rcases ho with rfl | rfl <;> revert this <;> decide
  rcases hm with k | k | k | k | k
  · refine folded_not hw (by rcases ho with rfl | rfl <;> decide) ?_ k
    rcases ho with rfl | rfl <;> cases z <;> decide
  · exact hb h1 k
  · rcases ho with rfl | rfl <;> revert k <;> decide
  · exact hb h2 k
  · exact noSign_not (noSign_pad n).1 (by rcases ho with rfl | rfl <;> decide) k

/-- An accepted text in brackets is a set. -/
theorem accepted_set {o c : Char} (hb : Brackets o c) {t : Str} (h : Accepted (o :: (t ++ [c]))) :
    ∃ cs, ChunksOk cs ∧ MembersOk (cs.flatMap Chunk.members) ∧ t = commaJoin (cs.map Chunk.text) := by
  have ho := hb.1
  have mem : o ∈ c! "/.,[]{}" := by rcases ho with rfl | rfl <;> decide
  have nd : ∀ {u : Str}, u = [] ∨ u = c! ".." → o ∉ u := by
    rintro u (rfl | rfl)
    · simp
    · rcases ho with rfl | rfl <;> decide
  rcases accepted_class h with k | k | k | ⟨o', c', cs, -, h1, h2, e⟩ | k | k
  · cases k
  · exact absurd (show o ∈ c! ".." by rw [← k]; simp) (nd (.inr rfl))
  · exfalso
    obtain ⟨l, r, e, hl⟩ := List.eq_append_cons_of_mem k
    rw [e] at h
    have hm : o ∈ l ++ '/' :: r := by rw [← e]; simp
    have hm : o ∈ l ∨ o ∈ r := by
      simp only [List.mem_append, List.mem_cons] at hm
      rcases hm with k | k | k
      · exact .inl k
      · exact absurd k (by rcases ho with rfl | rfl <;> decide)
      · exact .inr k
    have no : ∀ {u : Str}, noSign u = true → o ∉ u := fun hu => noSign_not hu mem
    rcases accepted_slash hl h with ⟨a, b, ha, hb, ra, rb, rfl, rfl⟩ | ⟨ht, x, hx, rfl⟩ | ⟨ht, neg, n, u, hn, rfl, hu⟩
    · exact hm.elim (no (noSign_endpoint ha.1)) (no (noSign_endpoint hb.1))
    · exact hm.elim (nd ht) (no (noSign_date x))
    · refine hm.elim (no (noSign_append.2 ⟨noSign_signed (noSign_pad n).1, ?_⟩)) (nd ht)
      rcases hu with rfl | ⟨-, m, -, -, rfl | ⟨d, -, -, rfl⟩⟩
      · rfl
      · exact noSign_cons.2 ⟨by decide, (noSign_pad m).2⟩
      · exact noSign_cons.2 ⟨by decide, noSign_append.2 ⟨(noSign_pad m).2, noSign_cons.2 ⟨by decide, (noSign_pad d).2⟩⟩⟩
  · refine ⟨cs, h1, h2, ?_⟩
    injection e with _ e
    exact (List.append_inj' e rfl).1
  · exact absurd (by simp) (named_noBracket k ho)
  · exact absurd (by simp) (noSign_not k mem)

theorem comma_mem {a b : Str} {l : List Str} : ',' ∈ commaJoin (a :: b :: l) := by simp [commaJoin]

theorem commaJoin_inj {l l' : List Str} (h : ∀ t ∈ l, ',' ∉ t) (h' : ∀ t ∈ l', ',' ∉ t) (h0 : l ≠ []) (h0' : l' ≠ []) (e : commaJoin l = commaJoin l') :
    l = l' := by
  induction l generalizing l' with
  | nil => exact absurd rfl h0
  | cons a l ih =>
    cases l' with
    | nil => exact absurd rfl h0'
    | cons a' l' =>
      cases l with
      | nil =>
        cases l' with
        | nil => simpa [commaJoin] using e
        | cons b' l' => exact absurd (show ',' ∈ a by rw [show a = commaJoin [a] from rfl, e]; exact comma_mem) (h a (by simp))
      | cons b l =>
        cases l' with
        | nil => exact absurd (show ',' ∈ a' by rw [show a' = commaJoin [a'] from rfl, ← e]; exact comma_mem) (h' a' (by simp))
        | cons b' l' =>
          rw [commaJoin_cons a (by simp), commaJoin_cons a' (by simp)] at e
          obtain ⟨rfl, e2⟩ := char_split (h _ (by simp)) (h' _ (by simp)) e
          rw [ih (fun t ht => h t (List.mem_cons_of_mem _ ht)) (fun t ht => h' t (List.mem_cons_of_mem _ ht)) (by simp) (by simp) e2]

/-- A text without the signs of sets is one chunk. -/
theorem one_chunk {t : Str} {cs : List Chunk} (h : ChunksOk cs) (hc : ',' ∉ t) (e : t = commaJoin (cs.map Chunk.text)) : ∃ k, cs = [k] ∧ t = k.text := by
  obtain ⟨-, ⟨k, hk, -⟩, -⟩ := h
  cases cs with
  | nil => cases hk
  | cons a cs =>
    cases cs with
    | nil => exact ⟨a, rfl, e⟩
    | cons b cs => exact absurd (by rw [e]; exact comma_mem) hc

theorem chunks_run {r : List Date0} (h : RunOk r) : ChunksOk [.run r] :=
  ⟨by simpa [Chunk.ok] using h, ⟨_, rfl, rfl⟩, by simp, by simp⟩

theorem chunks_runs {r r' : List Date0} (h : RunOk r) (h' : RunOk r') : ChunksOk [.run r, .run r'] :=
  ⟨by simp [Chunk.ok, h, h'], ⟨_, rfl, rfl⟩, by simp [Chunk.later], by simp [Chunk.inner]⟩

theorem chunks_pair {r r' : List Date0} (h : RunOk r) (h' : RunOk r') : ChunksOk [.pair r r'] :=
  ⟨by simp [Chunk.ok, h, h'], ⟨_, rfl, rfl⟩, by simp, by simp⟩

/-- What a set denotes, by its chunks. -/
theorem set_result (hf : DayCount f) {o c : Char} (hb : Brackets o c) {cs : List Chunk} (hc : ChunksOk cs) {g : EDTFDate}
    (h : parseString (o :: (commaJoin (cs.map Chunk.text) ++ [c])) = .ok g) :
    ∃ S E, SetSpan f (setFlag o) (cs.flatMap Chunk.members) (cs.any Chunk.opensStart) (cs.any Chunk.opensEnd) S E ∧
      g = ⟨some S, some E, o :: (commaJoin (cs.map Chunk.text) ++ [c]), 2, c! "Set representation"⟩ := by
  obtain ⟨cs', hc', hm, e⟩ := accepted_set hb ((C54_language _).1 ⟨g, h⟩)
  have ne : ∀ {ks : List Chunk}, ChunksOk ks → ks.map Chunk.text ≠ [] := by
    rintro ks ⟨-, ⟨k, hk, -⟩, -⟩ e
    rw [List.map_eq_nil_iff.1 e] at hk
    cases hk
  have no : ∀ {ks : List Chunk}, ∀ t ∈ ks.map Chunk.text, ',' ∉ t := by
    intro ks t ht
    obtain ⟨k, -, rfl⟩ := List.mem_map.1 ht
    exact chunk_comma k
  have et := commaJoin_inj no no (ne hc) (ne hc') e
  have c1 := collect_exact [] cs hc.1 ⟨[], false, false⟩
  have c2 := collect_exact [] cs' hc'.1 ⟨[], false, false⟩
  rw [et, c2] at c1
  simp only [Res.ok.injEq, L2.SetMembers.mk.injEq, List.nil_append, Bool.false_or] at c1
  rw [c1.1] at hm
  obtain ⟨S, E, hs⟩ := set_denotes f (p := setFlag o) hc hm
  exact ⟨S, E, hs, C55_unique hf ((C55_denotes hf _ _).1 h) (.set o c hb cs hc S E hs)⟩

end EDTF
