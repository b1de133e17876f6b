/- For C91: accepted texts with unspecified digits or qualifiers. -/
import Verif.LemmasSame2
namespace EDTF
open Spec

variable {f : Int → Nat → Nat → Int}

/-! ### Texts without unspecified digits and qualifiers -/

/-- Neither an unspecified digit nor a qualifier. -/
def Unmarked (s : Str) : Prop := ∀ c ∈ c! "X?~%", c ∉ s

theorem unm_append {s t : Str} (h : Unmarked s) (k : Unmarked t) : Unmarked (s ++ t) := fun c hc hm => by
  rcases List.mem_append.1 hm with m | m
  · exact h c hc m
  · exact k c hc m

theorem unm_cons {x : Char} {t : Str} (h : x ∉ c! "X?~%") (k : Unmarked t) : Unmarked (x :: t) := fun c hc hm => by
  rcases List.mem_cons.1 hm with rfl | m
  · exact h hc
  · exact k c hc m

theorem unm_nil : Unmarked [] := fun _ _ => by simp

theorem unm_digits {s : Str} (h : s.all isDig = true) : Unmarked s := fun c hc hm => by
  have := List.all_eq_true.1 h c hm
  rw [(by decide : ∀ c ∈ c! "X?~%", isDig c = false) c hc] at this
  cases this

theorem unm_map {ds : List Nat} (h : Digits ds) : Unmarked (ds.map dig) := by
  refine unm_digits (List.all_eq_true.2 ?_)
  intro x hx
  obtain ⟨k, hk, rfl⟩ := List.mem_map.1 hx
  exact (by decide : ∀ k < 10, isDig (dig k) = true) k (h.2 k hk)

theorem unm_pad (n : Nat) : Unmarked (pad4 n) ∧ Unmarked (pad2 n) := ⟨unm_digits (pad4_all n), unm_digits (pad2_all n)⟩

theorem unm_signed {b : Bool} {t : Str} (h : Unmarked t) : Unmarked (signed b t) := by
  cases b
  · exact h
  · exact unm_cons (by decide) h

theorem unm_run (r : List Date0) : Unmarked (runText r) := fun _ hc =>
  runText_not_mem r ((by decide : ∀ c ∈ c! "X?~%", isDig c = false) _ hc) (by rintro rfl; revert hc; decide)

theorem unm_date (x : Date0) : Unmarked x.text := by
  have := unm_run [x]
  simpa [runText] using this

theorem unm_dots {t : Str} (h : t = [] ∨ t = c! "..") : Unmarked t := by
  rcases h with rfl | rfl
  · exact unm_nil
  · exact unm_cons (by decide) (unm_cons (by decide) unm_nil)

theorem unm_join (cs : List Chunk) : Unmarked (commaJoin (cs.map Chunk.text)) := by
  have dd : Unmarked (c! "..") := unm_dots (.inr rfl)
  have hk : ∀ k : Chunk, Unmarked k.text := by
    intro k
    cases k with
    | run r => exact unm_run r
    | pair r r' => exact unm_append (unm_run r) (unm_append dd (unm_run r'))
    | upTo r => exact unm_append dd (unm_run r)
    | onFrom r => exact unm_append (unm_run r) dd
    | blank => exact unm_nil
    | dots => exact dd
  induction cs with
  | nil => exact unm_nil
  | cons k cs ih =>
    cases cs with
    | nil => exact hk k
    | cons b cs =>
      rw [List.map_cons, commaJoin_cons _ (by simp)]
      exact unm_append (hk k) (unm_cons (by decide) ih)

theorem unm_named {s : Str} (h : IsNamed s) : Unmarked s := by
  obtain ⟨z, w, t1, t2, n, hw, h1, h2, rfl⟩ := h
  have hb : ∀ {t : Str}, Blank t → Unmarked t := fun hb o ho hm => by
    have := hb _ hm
    have ho : o = 'X' ∨ o = '?' ∨ o = '~' ∨ o = '%' := by simpa using ho
    rcases ho with rfl | rfl | rfl | rfl <;> revert this <;> decide
  refine unm_append ?_ (unm_append (hb h1) (unm_cons (by decide) (unm_append (hb h2) (unm_pad n).1)))
  intro o ho
  have ho : o = 'X' ∨ o = '?' ∨ o = '~' ∨ o = '%' := by simpa using ho
  refine folded_not hw (by rcases ho with rfl | rfl | rfl | rfl <;> decide) ?_
  rcases ho with rfl | rfl | rfl | rfl <;> cases z <;> decide

/-- The accepted texts without a slash that have unspecified digits or qualifiers. -/
inductive Marked : Str → Prop
  | year (neg : Bool) (n : Nat) (h : n < 10000) (q : Char) (hq : q ∈ c! "?~%") : Marked (signed neg (pad4 n) ++ [q])
  | single (e : Endpoint) (h : e.Readable) (hn : e.date.neg = false) (hq : noLeft e.qy e.qm e.qd ∨ noRight e.qy e.qm e.qd)
      (hx : 'X' ∈ e.text → e.qy = .none ∧ e.qm = .none ∧ e.qd = .none) : Marked e.text
  | month (neg : Bool) (n m : Nat) (hn : n < 10000) (h1 : 1 ≤ m) (h2 : m ≤ 12) (hy : SeasonYear (if neg then -(n : Int) else n))
      (q : Char) (hq : q ∈ c! "?~%") : Marked (signed neg (pad4 n) ++ '-' :: (pad2 m ++ [q]))
  | day (neg : Bool) (n m : Nat) (hn : n < 10000) (h1 : 1 ≤ m) (h2 : m ≤ 12) (hy : SeasonYear (if neg then -(n : Int) else n))
      (d : Nat) (d1 : 1 ≤ d) (d2 : d ≤ 31) (q : Char) (hq : q ∈ c! "?~%") : Marked (signed neg (pad4 n) ++ '-' :: (pad2 m ++ '-' :: (pad2 d ++ [q])))
  | loose (n m : Nat) (hn : n < 10000) (h1 : 1 ≤ m) (h2 : m ≤ 12) (a b : Char) (h : LooseDay a b) : Marked (pad4 n ++ '-' :: (pad2 m ++ ['-', a, b]))

theorem accepted_marked {s : Str} (h : Accepted s) : Unmarked s ∨ '/' ∈ s ∨ Marked s := by
  cases h with
  | unknown => exact .inl unm_nil
  | opened => exact .inl (unm_dots (.inr rfl))
  | date x h => exact .inl (unm_date x)
  | time neg y m d hh mi ss z hy V k1 k2 k3 hz =>
    have hzz : Unmarked z.text := by
      cases z with
      | none => exact unm_nil
      | utc => exact unm_cons (by decide) unm_nil
      | hours b a => exact unm_cons (by cases b <;> decide) (unm_pad a).2
      | full b a c => exact unm_cons (by cases b <;> decide) (unm_append (unm_pad a).2 (unm_cons (by decide) (unm_pad c).2))
    have one : ∀ {x : Char}, x ∉ c! "X?~%" → Unmarked [x] := fun h => unm_cons h unm_nil
    refine .inl ?_
    unfold clockText hmsText
    refine unm_append ?_ ?_
    · cases neg
      · exact unm_nil
      · exact one (by decide)
    · have p2 := fun n => (unm_pad n).2
      exact unm_append (unm_append (unm_append (unm_append (unm_append (unm_append (unm_append (unm_pad y).1 (one (by decide))) (p2 m)) (one (by decide))) (p2 d))
        (one (by decide))) (unm_append (unm_append (unm_append (unm_append (p2 hh) (one (by decide))) (p2 mi)) (one (by decide))) (p2 ss))) hzz
  | interval a b ha hb ra rb => exact .inr (.inl (by simp))
  | startless t ht x h => exact .inr (.inl (by simp))
  | endless neg n h t ht => exact .inr (.inl (by simp))
  | qualifiedYear neg n h q hq => exact .inr (.inr (.year neg n h q hq))
  | single e h hn hq hx => exact .inr (.inr (.single e h hn hq hx))
  | month neg n m hn h1 h2 hy t ht =>
    cases ht with
    | qualifier _ q hq => exact .inr (.inr (.month neg n m hn h1 h2 hy q hq))
    | dayQualifier _ d d1 d2 q hq => exact .inr (.inr (.day neg n m hn h1 h2 hy d d1 d2 q hq))
    | ended _ t ht => exact .inr (.inl (by simp))
    | dayEnded _ d d1 d2 t ht => exact .inr (.inl (by simp))
    | loose a b h => exact .inr (.inr (.loose n m hn h1 h2 a b h))
  | season neg n hn z hy hz => exact .inl (unm_append (unm_signed (unm_pad n).1) (unm_cons (by decide) (unm_pad _).2))
  | seasonName z w t1 t2 n hw h1 h2 hn hz => exact .inl (unm_named ⟨z, w, t1, t2, n, hw, h1, h2, rfl⟩)
  | letter neg n h => exact .inl (unm_cons (by decide) (unm_signed (unm_pad n).1))
  | exponential yc ec hy he neg ms es hm' hes v hv h =>
    have n1 : yc ∉ c! "X?~%" := by rcases (by simpa using hy : yc = 'Y' ∨ yc = 'y') with rfl | rfl <;> decide
    have n2 : ec ∉ c! "X?~%" := by rcases (by simpa using he : ec = 'E' ∨ ec = 'e') with rfl | rfl <;> decide
    exact .inl (unm_cons n1 (unm_signed (unm_append (unm_map hm') (unm_cons n2 (unm_map hes)))))
  | significant t v h ds hd hk =>
    refine .inl (unm_append ?_ (unm_cons (by decide) (unm_map hd)))
    cases h with
    | date neg n h => exact unm_signed (unm_pad n).1
    | letter neg us hu hl => exact unm_cons (by decide) (unm_signed (unm_map hu))
    | exponential yc ec hy he neg ms es hm' hes _ hv =>
      have n1 : yc ∉ c! "X?~%" := by rcases (by simpa using hy : yc = 'Y' ∨ yc = 'y') with rfl | rfl <;> decide
      have n2 : ec ∉ c! "X?~%" := by rcases (by simpa using he : ec = 'E' ∨ ec = 'e') with rfl | rfl <;> decide
      exact unm_cons n1 (unm_signed (unm_append (unm_map hm') (unm_cons n2 (unm_map hes))))
  | grouping n hn g hg => exact .inl (unm_append (unm_pad n).1 (unm_cons (by decide) (unm_pad _).2))
  | set o c hb cs hc hm' =>
    refine .inl (unm_cons ?_ (unm_append (unm_join cs) (unm_cons ?_ unm_nil)))
    · rcases hb.1 with rfl | rfl <;> decide
    · rcases hb.2 with rfl | rfl <;> decide

/-! ### Intervals of dates -/

theorem pair_time {a b : Endpoint} (ha : a.shape) (hb : b.shape) (ra : noRight a.qy a.qm a.qd) (rb : noRight b.qy b.qm b.qd)
    {y1 y2 z1 z2 : Int} {m1 d1 m2 d2 n1 c1 n2 c2 : Nat} (hra : a.date.Runs y1 m1 d1 y2 m2 d2) (hrb : b.date.Runs z1 n1 c1 z2 n2 c2) :
    ∃ g, Denotes f (a.text ++ '/' :: b.text) g ∧ Timed g (86400 * f y1 m1 d1) (86400 * f z2 n2 c2 + 86399) :=
  ⟨_, .interval a b ha hb ra rb _ _ (RangeOf.date (f := f) a ha _ _ _ _ _ _ hra) (RangeOf.date (f := f) b hb _ _ _ _ _ _ hrb),
    ⟨_, ⟨_, rfl, rfl⟩, ts_start .., rfl, rfl⟩, _, ⟨_, rfl, rfl⟩, ts_end .., rfl, rfl⟩

/-! ### The last component -/

/-- The last component without digits can be left out. -/
theorem xx_drop {e : Endpoint} (hs : e.shape) (hr : noRight e.qy e.qm e.qd) {t : Str} (ht : e.text = t ++ c! "-XX") :
    ∃ e' : Endpoint, e'.shape ∧ noRight e'.qy e'.qm e'.qd ∧ e'.text = t ∧ e'.date.neg = e.date.neg ∧ e'.qy = e.qy ∧ (e.qm = .none → e'.qm = .none) ∧ e'.qd = .none ∧
      e'.date.dx = [] ∧ (e.date.dx = [] ∨ e.date.dx = c! "XX") ∧
      ∀ {y1 y2 : Int} {m1 d1 m2 d2 : Nat}, e.date.Runs y1 m1 d1 y2 m2 d2 → e'.date.Runs y1 m1 d1 y2 m2 d2 := by
  obtain ⟨⟨neg, yy, tl⟩, qy, qm, qd⟩ := e
  obtain ⟨⟨hl, hy, hx⟩, o1, o2, o3, hq⟩ := hs
  have key : ∀ {q : Deco} {w u : Str}, w.length = 2 → q.ok = true → q.isRight (fun _ => true) = false → u ++ '-' :: q.text w = t ++ c! "-XX" → u = t ∧ q = .none ∧ w = c! "XX" := by
    intro q w u hw ho hr e
    match w, hw with
    | [a, b], _ =>
      cases q with
      | none =>
        obtain ⟨e1, e2⟩ := List.append_inj' e rfl
        exact ⟨e1, rfl, by simpa [Deco.text] using e2⟩
      | left q =>
        exfalso
        have e : (u ++ ['-']) ++ [q, a, b] = t ++ ['-', 'X', 'X'] := by simpa [Deco.text] using e
        obtain ⟨-, e2⟩ := List.append_inj' e rfl
        cases e2
        exact absurd ho (by decide)
      | right q => cases hr
  cases tl with
  | none =>
    exfalso
    have ht : qy.text (if neg then '-' :: yy else yy) = t ++ c! "-XX" := by simpa [Endpoint.text] using ht
    match yy, hl, hy with
    | [a, b, c, d], _, hy =>
      have hb : b ≠ '-' := by
        intro k
        subst k
        rcases hy '-' (by simp) with k | ⟨k, hk, e⟩
        · cases k
        · exact (by decide : ∀ k < 10, '-' ≠ dig k) k hk e
      have e : ∃ u, u ++ [b, c, d] = t ++ ['-', 'X', 'X'] := by
        cases qy with
        | none =>
          cases neg
          · exact ⟨[a], ht⟩
          · exact ⟨['-', a], ht⟩
        | left q =>
          cases neg
          · exact ⟨[q, a], ht⟩
          · exact ⟨[q, '-', a], ht⟩
        | right q => exact absurd (hr _ (by simp : Deco.right q ∈ [Deco.right q, qm, qd])) (by simp [Deco.isRight])
      obtain ⟨u, e⟩ := e
      obtain ⟨-, e2⟩ := List.append_inj' e rfl
      cases e2
      exact hb rfl
  | month m =>
    obtain ⟨rfl, rfl, rfl⟩ := key hx.1 o2 (hr _ (by simp)) (by simpa [Endpoint.text] using ht)
    refine ⟨⟨⟨neg, yy, .none⟩, qy, .none, .none⟩, ⟨⟨hl, hy, trivial⟩, o1, rfl, rfl, rfl, rfl⟩, ?_, ?_, rfl, rfl, fun _ => rfl, rfl, rfl, .inl rfl, ?_⟩
    · intro q hq'
      rcases (by simpa using hq' : q = qy ∨ q = .none) with rfl | rfl
      · exact hr _ (by simp)
      · rfl
    · simp [Endpoint.text]
    · rintro y1 y2 m1 d1 m2 d2 ⟨k1, k2, k3⟩
      refine ⟨k1, ?_, k3⟩
      have k2 : MonthReads (c! "XX") m1 m2 := k2
      generalize ex : c! "XX" = w at k2
      cases k2 with
      | any => exact .absent
      | digits m h1 h2 => exact absurd ex ((by decide : ∀ m < 13, c! "XX" ≠ pad2 m) m1 (by omega))
      | _ => cases ex
  | day m d =>
    obtain ⟨e1, rfl, rfl⟩ := key (u := qy.text (if neg then '-' :: yy else yy) ++ '-' :: qm.text m) hx.2.2.1 o3 (hr _ (by simp)) (by simpa [Endpoint.text] using ht)
    refine ⟨⟨⟨neg, yy, .month m⟩, qy, qm, .none⟩, ⟨⟨hl, hy, hx.1, hx.2.1⟩, o1, o2, rfl, rfl⟩, ?_, ?_, rfl, rfl, fun k => k, rfl, rfl, .inr rfl, ?_⟩
    · exact hr
    · simpa [Endpoint.text] using e1
    · rintro y1 y2 m1 d1 m2 d2 ⟨k1, k2, k3, k4⟩
      refine ⟨k1, k2, ?_, k4⟩
      have k3 : DayReads (monthLen y1 m1) (monthLen y2 m2) (c! "XX") d1 d2 := k3
      show DayReads (monthLen y1 m1) (monthLen y2 m2) [] d1 d2
      generalize monthLen y1 m1 = l1, monthLen y2 m2 = l2 at *
      generalize ex : c! "XX" = w at k3
      cases k3 with
      | any => exact .absent
      | digits m h1 h2 => exact absurd ex ((by decide : ∀ m < 32, c! "XX" ≠ pad2 m) d1 (by omega))
      | _ => cases ex

end EDTF
