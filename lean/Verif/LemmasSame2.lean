/- For C91: the letters of accepted texts. -/
import Verif.LemmasSame1
namespace EDTF
open Spec

variable {f : Int → Nat → Nat → Int}

/-! ### Texts without letters -/

/-- None of the letters of years and of significant digits. -/
def Unlettered (s : Str) : Prop := ∀ c ∈ c! "EeSYy", c ∉ s

theorem unl_append {s t : Str} (h : Unlettered s) (k : Unlettered t) : Unlettered (s ++ t) := fun c hc hm => by
  rcases List.mem_append.1 hm with m | m
  · exact h c hc m
  · exact k c hc m

theorem unl_cons {x : Char} {t : Str} (h : x ∉ c! "EeSYy") (k : Unlettered t) : Unlettered (x :: t) := fun c hc hm => by
  rcases List.mem_cons.1 hm with rfl | m
  · exact h hc
  · exact k c hc m

theorem unl_nil : Unlettered [] := fun _ _ => by simp

theorem unl_digits {s : Str} (h : s.all isDig = true) : Unlettered s := fun c hc hm => by
  have := List.all_eq_true.1 h c hm
  rw [(by decide : ∀ c ∈ c! "EeSYy", isDig c = false) c hc] at this
  cases this

theorem unl_pad (n : Nat) : Unlettered (pad4 n) ∧ Unlettered (pad2 n) := ⟨unl_digits (pad4_all n), unl_digits (pad2_all n)⟩

theorem unl_signed {b : Bool} {t : Str} (h : Unlettered t) : Unlettered (signed b t) := by
  cases b
  · exact h
  · exact unl_cons (by decide) h

theorem unl_endpoint {e : Endpoint} (h : e.shape) : Unlettered e.text := fun c hc =>
  e_not_mem h ((by decide : ∀ c ∈ c! "EeSYy", isDX c = false) c hc) (by rintro rfl; revert hc; decide) ((by decide : ∀ c ∈ c! "EeSYy", isQ c = false) c hc)

theorem unl_date (x : Date0) : Unlettered x.text := by
  rw [← dateE_text]
  exact unl_endpoint (dateE_ok x).1

theorem unl_q {q : Char} (h : q ∈ c! "?~%") : q ∉ c! "EeSYy" := by
  rcases q_cases h with rfl | rfl | rfl <;> decide

theorem unl_dots {t : Str} (h : t = [] ∨ t = c! "..") : Unlettered t := by
  rcases h with rfl | rfl
  · exact unl_nil
  · exact unl_cons (by decide) (unl_cons (by decide) unl_nil)

theorem unl_join (cs : List Chunk) : Unlettered (commaJoin (cs.map Chunk.text)) := by
  have hr : ∀ r : List Date0, Unlettered (runText r) := by
    intro r
    induction r with
    | nil => exact unl_nil
    | cons x r ih => exact unl_append (unl_date x) ih
  have dd : Unlettered (c! "..") := unl_dots (.inr rfl)
  have hk : ∀ k : Chunk, Unlettered k.text := by
    intro k
    cases k with
    | run r => exact hr r
    | pair r r' => exact unl_append (hr r) (unl_append dd (hr r'))
    | upTo r => exact unl_append dd (hr r)
    | onFrom r => exact unl_append (hr r) dd
    | blank => exact unl_nil
    | dots => exact dd
  induction cs with
  | nil => exact unl_nil
  | cons k cs ih =>
    cases cs with
    | nil => exact hk k
    | cons b cs =>
      rw [List.map_cons, commaJoin_cons _ (by simp)]
      exact unl_append (hk k) (unl_cons (by decide) ih)

/-- The texts that begin with a letter. -/
inductive LetterText : Str → Prop
  | year (neg : Bool) (n : Nat) (h : n < 10000) : LetterText ('Y' :: signed neg (pad4 n))
  | notation (yc ec : Char) (hy : yc ∈ c! "Yy") (he : ec ∈ c! "Ee") (neg : Bool) (ms : List Nat) (hm : Digits ms) (u : Str) :
      LetterText (yc :: signed neg (ms.map dig ++ ec :: u))
  | significant (neg : Bool) (us : List Nat) (hu : Digits us) (hl : (signed neg (us.map dig)).length ≤ 4) (ds : List Nat) (hd : Digits ds)
      (hk : SigFits (if neg then -(value10 us : Int) else value10 us) (value10 ds)) : LetterText ('Y' :: (signed neg (us.map dig) ++ 'S' :: ds.map dig))

theorem letter_cons {s : Str} (h : LetterText s) : ∃ yc t, yc ∈ c! "Yy" ∧ s = yc :: t := by
  cases h with
  | year => exact ⟨_, _, by decide, rfl⟩
  | «notation» yc ec hy => exact ⟨_, _, hy, rfl⟩
  | significant => exact ⟨_, _, by decide, rfl⟩

/-- The accepted texts with such letters: names, texts that begin with one, and years with significant digits. -/
theorem accepted_letters {s : Str} (h : Accepted s) : Unlettered s ∨ IsNamed s ∨ LetterText s ∨
    ∃ neg n ds, n < 10000 ∧ Digits ds ∧ s = signed neg (pad4 n) ++ 'S' :: ds.map dig := by
  cases h with
  | unknown => exact .inl unl_nil
  | opened => exact .inl (unl_dots (.inr rfl))
  | date x h => exact .inl (unl_date x)
  | time neg y m d hh mi ss z hy V k1 k2 k3 hz =>
    have hzz : Unlettered z.text := by
      cases z with
      | none => exact unl_nil
      | utc => exact unl_cons (by decide) unl_nil
      | hours b a => exact unl_cons (by cases b <;> decide) (unl_pad a).2
      | full b a c => exact unl_cons (by cases b <;> decide) (unl_append (unl_pad a).2 (unl_cons (by decide) (unl_pad c).2))
    have one : ∀ {x : Char}, x ∉ c! "EeSYy" → Unlettered [x] := fun h => unl_cons h unl_nil
    refine .inl ?_
    unfold clockText hmsText
    refine unl_append ?_ ?_
    · cases neg
      · exact unl_nil
      · exact one (by decide)
    · have p2 := fun n => (unl_pad n).2
      exact unl_append (unl_append (unl_append (unl_append (unl_append (unl_append (unl_append (unl_pad y).1 (one (by decide))) (p2 m)) (one (by decide))) (p2 d))
        (one (by decide))) (unl_append (unl_append (unl_append (unl_append (p2 hh) (one (by decide))) (p2 mi)) (one (by decide))) (p2 ss))) hzz
  | interval a b ha hb ra rb => exact .inl (unl_append (unl_endpoint ha.1) (unl_cons (by decide) (unl_endpoint hb.1)))
  | startless t ht x h => exact .inl (unl_append (unl_dots ht) (unl_cons (by decide) (unl_date x)))
  | endless neg n h t ht => exact .inl (unl_append (unl_signed (unl_pad n).1) (unl_cons (by decide) (unl_dots ht)))
  | qualifiedYear neg n h q hq => exact .inl (unl_append (unl_signed (unl_pad n).1) (unl_cons (unl_q hq) unl_nil))
  | single e h hn hq hx => exact .inl (unl_endpoint h.1)
  | month neg n m hn h1 h2 hy t ht =>
    have ns : ∀ {u : Str}, Unlettered u → Unlettered (signed neg (pad4 n) ++ '-' :: (pad2 m ++ u)) := fun hu =>
      unl_append (unl_signed (unl_pad n).1) (unl_cons (by decide) (unl_append (unl_pad m).2 hu))
    refine .inl (ns ?_)
    cases ht with
    | qualifier _ q hq => exact unl_cons (unl_q hq) unl_nil
    | dayQualifier _ d d1 d2 q hq => exact unl_cons (by decide) (unl_append (unl_pad d).2 (unl_cons (unl_q hq) unl_nil))
    | ended _ t ht => exact unl_cons (by decide) (unl_dots ht)
    | dayEnded _ d d1 d2 t ht => exact unl_cons (by decide) (unl_append (unl_pad d).2 (unl_cons (by decide) (unl_dots ht)))
    | loose a b h =>
      obtain ⟨h, -⟩ := h
      have sub : ∀ {x : Char} {l : Str}, x ∈ l → (∀ c ∈ c! "EeSYy", c ∉ l) → x ∉ c! "EeSYy" := fun hx hl k => hl _ k hx
      refine unl_cons (by decide) (unl_cons ?_ (unl_cons ?_ unl_nil))
      · rcases h with ⟨h, -⟩ | ⟨h, -⟩ <;> exact sub h (by decide)
      · rcases h with ⟨-, h⟩ | ⟨-, h⟩ <;> exact sub h (by decide)
  | season neg n hn z hy hz => exact .inl (unl_append (unl_signed (unl_pad n).1) (unl_cons (by decide) (unl_pad _).2))
  | seasonName z w t1 t2 n hw h1 h2 hn hz => exact .inr (.inl ⟨z, w, t1, t2, n, hw, h1, h2, rfl⟩)
  | letter neg n h => exact .inr (.inr (.inl (.year neg n h)))
  | exponential yc ec hy he neg ms es hm' hes v hv h => exact .inr (.inr (.inl (.notation yc ec hy he neg ms hm' _)))
  | significant t v h ds hd hk =>
    cases h with
    | date neg n h => exact .inr (.inr (.inr ⟨neg, n, ds, h, hd, rfl⟩))
    | letter neg us hu hl => exact .inr (.inr (.inl (.significant neg us hu hl ds hd hk)))
    | exponential yc ec hy he neg ms es hm' hes _ hv =>
      refine .inr (.inr (.inl ?_))
      have := LetterText.notation yc ec hy he neg ms hm' (es.map dig ++ 'S' :: ds.map dig)
      rwa [show yc :: signed neg (ms.map dig ++ ec :: (es.map dig ++ 'S' :: ds.map dig)) = yc :: signed neg (ms.map dig ++ ec :: es.map dig) ++ 'S' :: ds.map dig by
        cases neg <;> simp [signed]] at this
  | grouping n hn g hg => exact .inl (unl_append (unl_pad n).1 (unl_cons (by decide) (unl_pad _).2))
  | set o c hb cs hc hm' =>
    refine .inl (unl_cons ?_ (unl_append (unl_join cs) (unl_cons ?_ unl_nil)))
    · rcases hb.1 with rfl | rfl <;> decide
    · rcases hb.2 with rfl | rfl <;> decide

/-- The first character of a signed number. -/
theorem signed_head (neg : Bool) {a : Nat} {as : List Nat} (ha : a < 10) (u : Str) : ∃ x t, signed neg ((a :: as).map dig ++ u) = x :: t ∧ (isDig x = true ∨ x = '-') := by
  cases neg
  · exact ⟨dig a, _, rfl, .inl (by revert a; decide)⟩
  · exact ⟨'-', _, rfl, .inr rfl⟩

/-- A text with such a letter that begins with a digit or a sign is a year with significant digits. -/
theorem accepted_numeric {s : Str} {x y : Char} {t : Str} (h : Accepted s) (e : s = x :: t) (hx : isDig x = true ∨ x = '-') (hy : y ∈ c! "EeSYy") (hm : y ∈ s) :
    ∃ neg n ds, n < 10000 ∧ Digits ds ∧ s = signed neg (pad4 n) ++ 'S' :: ds.map dig := by
  rcases accepted_letters h with k | ⟨z, w, t1, t2, n, hw, -, -, k⟩ | k | k
  · exact absurd hm (k y hy)
  · exfalso
    obtain ⟨v0, v, ev⟩ : ∃ v0 v, z.word = v0 :: v := by cases z <;> exact ⟨_, _, rfl⟩
    cases w with
    | nil => have := hw.1; rw [ev] at this; cases this
    | cons x' w =>
      have : x' = x := by rw [e] at k; injection k with k _; exact k.symm
      subst this
      have : x' ∉ x' :: w := by
        refine folded_not hw (by rintro rfl; revert hx; decide) ?_
        have key : ∀ c ∈ c! "springumeatwfl", isDig c = false ∧ c ≠ '-' ∧ isDig (Char.ofNat (c.toNat - 32)) = false ∧ Char.ofNat (c.toNat - 32) ≠ '-' := by decide
        intro c hc
        have hc : c ∈ c! "springumeatwfl" := by
          revert hc
          cases z
          all_goals exact (by decide : ∀ c ∈ _, c ∈ c! "springumeatwfl") c
        obtain ⟨k1, k2, k3, k4⟩ := key c hc
        constructor
        · rintro rfl
          rcases hx with h | h
          · rw [k1] at h; cases h
          · exact k2 h
        · intro h
          rw [h] at k3 k4
          rcases hx with h | h
          · rw [k3] at h; cases h
          · exact k4 h
      exact this (by simp)
  · exfalso
    obtain ⟨yc, u, hyc, k⟩ := letter_cons k
    rw [e] at k
    injection k with k _
    subst k
    have : x = 'Y' ∨ x = 'y' := by simpa using hyc
    rcases this with rfl | rfl <;> revert hx <;> decide
  · exact k

end EDTF
