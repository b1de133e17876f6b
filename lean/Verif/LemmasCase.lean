/- Lemmas for C93: texts that differ in capital and small letters. -/
import Verif.SpecCase
import Verif.LemmasSame3
import Verif.PropsSame
namespace EDTF
open Spec
variable {f : Int → Nat → Nat → Int}

/-! ### Texts that are alike -/

theorem alike_refl (s : Str) : Alike s s := by
  induction s with
  | nil => exact .nil
  | cons c s ih => exact .same c ih

theorem alike_symm {s t : Str} (h : Alike s t) : Alike t s := by
  induction h with
  | nil => exact .nil
  | same a _ ih => exact .same a ih
  | big k _ ih => exact .small k ih
  | small k _ ih => exact .big k ih

/-- One letter of such texts. -/
def Like (a b : Char) : Prop := a = b ∨ BigSmall a b ∨ BigSmall b a

theorem alike_cons {a : Char} {s t : Str} (h : Alike (a :: s) t) : ∃ b u, t = b :: u ∧ Like a b ∧ Alike s u := by
  cases h with
  | same _ h => exact ⟨_, _, rfl, .inl rfl, h⟩
  | big k h => exact ⟨_, _, rfl, .inr (.inl k), h⟩
  | small k h => exact ⟨_, _, rfl, .inr (.inr k), h⟩

theorem alike_append {s u t : Str} (h : Alike (s ++ u) t) : ∃ s' u', t = s' ++ u' ∧ Alike s s' ∧ Alike u u' := by
  induction s generalizing t with
  | nil => exact ⟨[], t, rfl, .nil, h⟩
  | cons c s ih =>
    obtain ⟨b, v, rfl, hb, hv⟩ := alike_cons h
    obtain ⟨s', u', rfl, h1, h2⟩ := ih hv
    refine ⟨b :: s', u', rfl, ?_, h2⟩
    rcases hb with rfl | k | k
    · exact .same _ h1
    · exact .big k h1
    · exact .small k h1

theorem alike_mem {s t : Str} (h : Alike s t) {c : Char} (hc : c ∈ s) : ∃ b ∈ t, Like c b := by
  induction h with
  | nil => cases hc
  | same a _ ih =>
    rcases List.mem_cons.1 hc with rfl | hc
    · exact ⟨_, by simp, .inl rfl⟩
    · obtain ⟨b, hb, k⟩ := ih hc; exact ⟨b, by simp [hb], k⟩
  | big k _ ih =>
    rcases List.mem_cons.1 hc with rfl | hc
    · exact ⟨_, by simp, .inr (.inl k)⟩
    · obtain ⟨b, hb, k⟩ := ih hc; exact ⟨b, by simp [hb], k⟩
  | small k _ ih =>
    rcases List.mem_cons.1 hc with rfl | hc
    · exact ⟨_, by simp, .inr (.inr k)⟩
    · obtain ⟨b, hb, k⟩ := ih hc; exact ⟨b, by simp [hb], k⟩

/-- Small letters, and capital letters that are no signs of their own. -/
def soft : Str := c! "ABCDEFGHIJKLMNOPQRUVWabcdefghijklmnopqrstuvwxyz"

/-- The text has none of them. -/
def Firm (s : Str) : Prop := ∀ c ∈ soft, c ∉ s

theorem small_soft {a b : Char} (h : BigSmall a b) : b ∈ soft := by
  obtain ⟨k, hk, -, rfl⟩ := h
  exact (by decide : ∀ k, k < 26 → Char.ofNat (97 + k) ∈ soft) k hk

theorem firm_alike {s t : Str} (h : Alike s t) (hs : Firm s) (ht : Firm t) : s = t := by
  induction h with
  | nil => rfl
  | same a _ ih => rw [ih (fun c hc k => hs c hc (List.mem_cons_of_mem _ k)) (fun c hc k => ht c hc (List.mem_cons_of_mem _ k))]
  | big k => exact absurd (List.mem_cons_self ..) (ht _ (small_soft k))
  | small k => exact absurd (List.mem_cons_self ..) (hs _ (small_soft k))

/-- A character that is no letter. -/
def Bland (c : Char) : Prop := ∀ k, k < 26 → c ≠ Char.ofNat (65 + k) ∧ c ≠ Char.ofNat (97 + k)

theorem like_plain {a b : Char} (h : Like a b) (ha : Bland a) : a = b := by
  rcases h with h | ⟨k, hk, e, -⟩ | ⟨k, hk, -, e⟩
  · exact h
  · exact absurd e (ha k hk).1
  · exact absurd e (ha k hk).2

theorem alike_plain {s t : Str} (h : Alike s t) (hs : ∀ c ∈ s, Bland c) : s = t := by
  induction h with
  | nil => rfl
  | same a _ ih => rw [ih (fun c hc => hs c (List.mem_cons_of_mem _ hc))]
  | big k => exact absurd (like_plain (.inr (.inl k)) (hs _ (by simp))) (by
      obtain ⟨k, hk, rfl, rfl⟩ := k
      exact (by decide : ∀ k, k < 26 → Char.ofNat (65 + k) ≠ Char.ofNat (97 + k)) k hk)
  | small k => exact absurd (like_plain (.inr (.inr k)) (hs _ (by simp))) (by
      obtain ⟨k, hk, rfl, rfl⟩ := k
      exact (by decide : ∀ k, k < 26 → Char.ofNat (97 + k) ≠ Char.ofNat (65 + k)) k hk)

theorem bland_dec {c : Char} (h : (List.range 26).all (fun k => decide (c ≠ Char.ofNat (65 + k) ∧ c ≠ Char.ofNat (97 + k))) = true) : Bland c :=
  fun k hk => by
    have := List.all_eq_true.1 h k (by simp [hk])
    exact of_decide_eq_true this

theorem bland_digit {c : Char} (h : isDig c = true) : Bland c := by
  obtain ⟨k, hk, rfl⟩ := (isDig_iff _).1 h
  exact (by
    have : ∀ k, k < 10 → (List.range 26).all (fun j => decide (dig k ≠ Char.ofNat (65 + j) ∧ dig k ≠ Char.ofNat (97 + j))) = true := by decide
    exact bland_dec (this k hk))

theorem bland_digits {s : Str} (h : s.all isDig = true) : ∀ c ∈ s, Bland c := fun c hc => bland_digit (List.all_eq_true.1 h c hc)

theorem bland_signed {b : Bool} {s : Str} (h : ∀ c ∈ s, Bland c) : ∀ c ∈ signed b s, Bland c := by
  intro c hc
  cases b
  · exact h c hc
  · rcases List.mem_cons.1 hc with rfl | hc
    · exact bland_dec (by decide)
    · exact h c hc

theorem like_of {a b : Char} (h : Like a b) {l : Str} (hl : ∀ k, k < 26 → (Char.ofNat (65 + k) ∈ l ↔ Char.ofNat (97 + k) ∈ l)) (ha : a ∈ l) : b ∈ l := by
  rcases h with rfl | ⟨k, hk, rfl, rfl⟩ | ⟨k, hk, rfl, rfl⟩
  · exact ha
  · exact (hl k hk).1 ha
  · exact (hl k hk).2 ha

/-! ### Firm texts -/

theorem firm_append {s t : Str} (h : Firm s) (k : Firm t) : Firm (s ++ t) := fun c hc hm => by
  rcases List.mem_append.1 hm with m | m
  · exact h c hc m
  · exact k c hc m

theorem firm_cons {x : Char} {t : Str} (h : x ∉ soft) (k : Firm t) : Firm (x :: t) := fun c hc hm => by
  rcases List.mem_cons.1 hm with m | m
  · exact h (m ▸ hc)
  · exact k c hc m

theorem firm_nil : Firm [] := fun _ _ => by simp

theorem firm_digits {s : Str} (h : s.all isDig = true) : Firm s := fun c hc hm => by
  have := List.all_eq_true.1 h c hm
  revert hc this
  unfold soft
  intro hc this
  have key : ∀ c ∈ c! "ABCDEFGHIJKLMNOPQRUVWabcdefghijklmnopqrstuvwxyz", isDig c = false := by decide
  rw [key c hc] at this
  cases this

theorem firm_map {ds : List Nat} (h : Digits ds) : Firm (ds.map dig) := by
  refine firm_digits (List.all_eq_true.2 fun c hc => ?_)
  obtain ⟨d, hd, rfl⟩ := List.mem_map.1 hc
  exact (isDig_iff _).2 ⟨d, h.2 d hd, rfl⟩

theorem firm_pad (n : Nat) : Firm (pad4 n) ∧ Firm (pad2 n) := ⟨firm_digits (pad4_all n), firm_digits (pad2_all n)⟩

theorem firm_signed {b : Bool} {t : Str} (h : Firm t) : Firm (signed b t) := by
  cases b
  · exact h
  · exact firm_cons (by decide) h

theorem firm_endpoint {e : Endpoint} (h : e.shape) : Firm e.text := fun c hc =>
  e_not_mem h ((by decide : ∀ c ∈ soft, isDX c = false) c hc) (by rintro rfl; revert hc; decide) ((by decide : ∀ c ∈ soft, isQ c = false) c hc)

theorem firm_date (x : Date0) : Firm x.text := by
  rw [← dateE_text]
  exact firm_endpoint (dateE_ok x).1

theorem firm_q {q : Char} (h : q ∈ c! "?~%") : q ∉ soft := by
  have := (by decide : ∀ c ∈ c! "?~%", c ∉ soft)
  exact this q h

theorem firm_dots {t : Str} (h : t = [] ∨ t = c! "..") : Firm t := by
  rcases h with rfl | rfl
  · exact firm_nil
  · exact firm_cons (by decide) (firm_cons (by decide) firm_nil)

theorem firm_run (r : List Date0) : Firm (runText r) := by
  induction r with
  | nil => exact firm_nil
  | cons x r ih => exact firm_append (firm_date x) ih

theorem firm_join (cs : List Chunk) : Firm (commaJoin (cs.map Chunk.text)) := by
  have dd : Firm (c! "..") := firm_dots (.inr rfl)
  have hk : ∀ k : Chunk, Firm k.text := by
    intro k
    cases k with
    | run r => exact firm_run r
    | pair r r' => exact firm_append (firm_run r) (firm_append dd (firm_run r'))
    | upTo r => exact firm_append dd (firm_run r)
    | onFrom r => exact firm_append (firm_run r) dd
    | blank => exact firm_nil
    | dots => exact dd
  induction cs with
  | nil => exact firm_nil
  | cons k cs ih =>
    cases cs with
    | nil => exact hk k
    | cons b cs =>
      rw [List.map_cons, commaJoin_cons _ (by simp)]
      exact firm_append (hk k) (firm_cons (by decide) ih)

/-! ### Days with unspecified digits -/

theorem unknown_mem {s : Str} (h : UnknownDay s) {c : Char} (hc : c ∈ s) : c ∈ c! "0123456789-Xx" := by
  obtain ⟨n, m, a, b, rfl, ha, hb, -⟩ := h
  have dg : ∀ {t : Str}, t.all isDig = true → c ∈ t → c ∈ c! "0123456789-Xx" := by
    intro t ht hc
    obtain ⟨k, hk, rfl⟩ := (isDig_iff _).1 (List.all_eq_true.1 ht c hc)
    exact (by decide : ∀ k, k < 10 → dig k ∈ c! "0123456789-Xx") k hk
  have sub : ∀ c ∈ c! "0123456789Xx", c ∈ c! "0123456789-Xx" := by decide
  rcases List.mem_append.1 hc with hc | hc
  · exact dg (pad4_all n) hc
  rcases List.mem_cons.1 hc with rfl | hc
  · decide
  rcases List.mem_append.1 hc with hc | hc
  · exact dg (pad2_all m) hc
  rcases List.mem_cons.1 hc with rfl | hc
  · decide
  rcases List.mem_cons.1 hc with rfl | hc
  · exact sub _ ha
  rcases List.mem_cons.1 hc with rfl | hc
  · exact sub _ hb
  · cases hc

theorem unknown_has {s : Str} (h : UnknownDay s) : 'X' ∈ s ∨ 'x' ∈ s := by
  obtain ⟨n, m, a, b, rfl, -, -, h⟩ := h
  rcases h with h | h <;> (simp at h; rcases h with rfl | rfl <;> simp)

/-- A text with none of these signs is no such day. -/
theorem unknown_not {s : Str} (h : 'X' ∉ s) (k : 'x' ∉ s) : ¬ UnknownDay s := fun u => (unknown_has u).elim h k

/-- A firm text that is no such day keeps all its letters. -/
def Rigid (s : Str) : Prop := Firm s ∧ ¬ UnknownDay s

theorem rigid_of {s : Str} (h : Firm s) (k : 'X' ∉ s) : Rigid s := ⟨h, unknown_not k (h 'x' (by decide))⟩

theorem loose_like {a b a' b' : Char} (h : LooseDay a b) (ha : Like a a') (hb : Like b b') : LooseDay a' b' := by
  obtain ⟨h, k⟩ := h
  have e1 : ∀ {x y : Char}, Like x y → x ∈ c! "012Xx" → y ∈ c! "012Xx" := fun l => like_of l (by decide)
  have e2 : ∀ {x y : Char}, Like x y → x ∈ c! "123456789Xx" → y ∈ c! "123456789Xx" := fun l => like_of l (by decide)
  have e3 : ∀ {x y : Char}, Like x y → x ∈ c! "3Xx" → y ∈ c! "3Xx" := fun l => like_of l (by decide)
  have e4 : ∀ {x y : Char}, Like x y → x ∈ c! "01Xx" → y ∈ c! "01Xx" := fun l => like_of l (by decide)
  have e5 : ∀ {x y : Char}, Like x y → x ∈ c! "Xx" → y ∈ c! "Xx" := fun l => like_of l (by decide)
  exact ⟨h.imp (fun h => ⟨e1 ha h.1, e2 hb h.2⟩) (fun h => ⟨e3 ha h.1, e4 hb h.2⟩), k.imp (e5 ha) (e5 hb)⟩

theorem unknown_alike {s t : Str} (h : UnknownDay s) (k : Alike s t) : UnknownDay t := by
  obtain ⟨n, m, a, b, rfl, ha, hb, h⟩ := h
  obtain ⟨u, v, rfl, h1, k⟩ := alike_append k
  obtain ⟨x, v, rfl, h2, k⟩ := alike_cons k
  obtain ⟨w, v, rfl, h3, k⟩ := alike_append k
  obtain ⟨y, v, rfl, h4, k⟩ := alike_cons k
  obtain ⟨a', v, rfl, h5, k⟩ := alike_cons k
  obtain ⟨b', v, rfl, h6, k⟩ := alike_cons k
  cases k
  cases alike_plain h1 (bland_digits (pad4_all n))
  cases alike_plain h3 (bland_digits (pad2_all m))
  cases like_plain h2 (bland_dec (by decide))
  cases like_plain h4 (bland_dec (by decide))
  exact ⟨n, m, a', b', rfl, like_of h5 (by decide) ha, like_of h6 (by decide) hb, h.imp (like_of h5 (by decide)) (like_of h6 (by decide))⟩

/-! ### Names of seasons -/

theorem like_small {v a b : Char} (hv : 97 ≤ v.toNat ∧ v.toNat ≤ 122) (h : a = v ∨ a = Char.ofNat (v.toNat - 32) ∨ (v = 's' ∧ a = 'ſ')) (k : Like a b) :
    b = v ∨ b = Char.ofNat (v.toNat - 32) ∨ (v = 's' ∧ b = 'ſ') := by
  obtain ⟨j, hj, rfl⟩ : ∃ j, j < 26 ∧ v = Char.ofNat (97 + j) := ⟨v.toNat - 97, by omega, by rw [show 97 + (v.toNat - 97) = v.toNat by omega, Char.ofNat_toNat]⟩
  have up : ∀ j, j < 26 → Char.ofNat ((Char.ofNat (97 + j)).toNat - 32) = Char.ofNat (65 + j) := by decide
  rw [up j hj] at h ⊢
  rcases h with rfl | rfl | ⟨e, rfl⟩
  · rcases k with k | ⟨i, hi, e1, e2⟩ | ⟨i, hi, e1, e2⟩
    · exact .inl k.symm
    · exact absurd e1 ((by decide : ∀ j, j < 26 → ∀ i, i < 26 → Char.ofNat (97 + j) ≠ Char.ofNat (65 + i)) j hj i hi)
    · have := (by decide : ∀ j, j < 26 → ∀ i, i < 26 → Char.ofNat (97 + j) = Char.ofNat (97 + i) → j = i) j hj i hi e2
      subst this
      exact .inr (.inl e1)
  · rcases k with k | ⟨i, hi, e1, e2⟩ | ⟨i, hi, e1, e2⟩
    · exact .inr (.inl k.symm)
    · have := (by decide : ∀ j, j < 26 → ∀ i, i < 26 → Char.ofNat (65 + j) = Char.ofNat (65 + i) → j = i) j hj i hi e1
      subst this
      exact .inl e2
    · exact absurd e2 ((by decide : ∀ j, j < 26 → ∀ i, i < 26 → Char.ofNat (65 + j) ≠ Char.ofNat (97 + i)) j hj i hi)
  · rcases k with k | ⟨i, hi, e1, e2⟩ | ⟨i, hi, e1, e2⟩
    · exact .inr (.inr ⟨e, k.symm⟩)
    · exact absurd e1 ((by decide : ∀ i, i < 26 → 'ſ' ≠ Char.ofNat (65 + i)) i hi)
    · exact absurd e2 ((by decide : ∀ i, i < 26 → 'ſ' ≠ Char.ofNat (97 + i)) i hi)

theorem folded_alike {v w w' : Str} (hv : ∀ c ∈ v, 97 ≤ c.toNat ∧ c.toNat ≤ 122) (h : Folded v w) (k : Alike w w') : Folded v w' := by
  induction v generalizing w w' with
  | nil =>
    obtain ⟨hl, -⟩ := h
    have : w = [] := List.length_eq_zero_iff.1 hl
    subst this
    cases k
    exact ⟨rfl, fun _ hp => by cases hp⟩
  | cons x v ih =>
    obtain ⟨hl, hz⟩ := h
    cases w with
    | nil => cases hl
    | cons a w =>
      obtain ⟨b, u, rfl, hb, hu⟩ := alike_cons k
      have h1 := like_small (hv x (by simp)) (hz (x, a) (by simp)) hb
      obtain ⟨i1, i2⟩ := ih (fun c hc => hv c (by simp [hc])) ⟨by simpa using hl, fun p hp => hz p (by simp [hp])⟩ hu
      refine ⟨by simp [i1], fun p hp => ?_⟩
      rcases List.mem_cons.1 hp with rfl | hp
      · exact h1
      · exact i2 p hp

theorem word_small (z : Season) : ∀ c ∈ z.word, 97 ≤ c.toNat ∧ c.toNat ≤ 122 := by cases z <;> decide

/-- Each name has a letter that is no sign of its own, whichever way it is written. -/
theorem word_soft {z : Season} {w w' : Str} (h : Folded z.word w) (k : Alike w w') : ¬ Firm w' := by
  have h := folded_alike (word_small z) h k
  intro hf
  have get : ∀ (i : Nat) (hi : i < z.word.length), z.word[i] ≠ 's' → z.word[i] ∈ soft → Char.ofNat (z.word[i].toNat - 32) ∈ soft → False := by
    intro i hi hs h1 h2
    obtain ⟨hl, hz⟩ := h
    have hi' : i < w'.length := by omega
    have hp : (z.word[i], w'[i]) ∈ z.word.zip w' := List.mem_iff_getElem.2 ⟨i, by simp; omega, by simp⟩
    rcases hz _ hp with e | e | ⟨e, -⟩
    · exact hf _ h1 (by simp only at e; rw [← e]; exact List.getElem_mem hi')
    · exact hf _ h2 (by simp only at e; rw [← e]; exact List.getElem_mem hi')
    · exact hs e
  cases z with
  | spring => exact get 1 (by decide) (by decide) (by decide) (by decide)
  | summer => exact get 1 (by decide) (by decide) (by decide) (by decide)
  | fall => exact get 1 (by decide) (by decide) (by decide) (by decide)
  | winter => exact get 1 (by decide) (by decide) (by decide) (by decide)

/-- What a name begins with. -/
theorem word_head {z : Season} {w : Str} (h : Folded z.word w) : ∃ c u, w = c :: u ∧ c ∈ c! "SsFfWwſ" := by
  obtain ⟨hl, hz⟩ := h
  cases w with
  | nil => cases z <;> cases hl
  | cons c u =>
    refine ⟨c, u, rfl, ?_⟩
    have key : ∀ (v : Char) (vs : Str), z.word = v :: vs → c = v ∨ c = Char.ofNat (v.toNat - 32) ∨ (v = 's' ∧ c = 'ſ') := by
      intro v vs e
      exact hz (v, c) (by rw [e]; simp)
    cases z <;> (rcases key _ _ rfl with rfl | rfl | ⟨-, rfl⟩ <;> decide)

end EDTF
