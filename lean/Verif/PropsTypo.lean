/-
C96: typing errors.
-/
import Verif.SpecTypo
import Verif.PropsLang
namespace EDTF
open Spec

theorem outline_append (a b : Str) : outline (a ++ b) = outline a ++ outline b := by
  simp [outline, stripped]

theorem outline_cons {c : Char} (h : ¬ QMark c) (s : Str) : outline (c :: s) = mark c :: outline s := by
  simp [outline, stripped, h]

theorem outline_qual {c : Char} (h : QMark c) (s : Str) : outline (c :: s) = outline s := by
  simp [outline, stripped, h]

theorem mark_dig (k : Nat) (h : k < 10) : ¬ QMark (dig k) ∧ mark (dig k) = '0' := by
  have : ∀ k : Fin 10, ¬ QMark (dig k) ∧ mark (dig k) = '0' := by decide
  exact this ⟨k, h⟩

theorem outline_pad2 (n : Nat) : outline (pad2 n) = c! "00" := by
  have h1 := mark_dig (n / 10 % 10) (by omega)
  have h2 := mark_dig (n % 10) (by omega)
  rw [pad2, outline_cons h1.1, outline_cons h2.1, h1.2, h2.2]; rfl

theorem outline_pad4 (n : Nat) : outline (pad4 n) = c! "0000" := by
  have h1 := mark_dig (n / 1000 % 10) (by omega)
  have h2 := mark_dig (n / 100 % 10) (by omega)
  have h3 := mark_dig (n / 10 % 10) (by omega)
  have h4 := mark_dig (n % 10) (by omega)
  rw [pad4, outline_cons h1.1, outline_cons h2.1, outline_cons h3.1, outline_cons h4.1, h1.2, h2.2, h3.2, h4.2]; rfl

theorem outline_x {s : Str} (h : ∀ c ∈ s, XDigit c) : outline s = List.replicate s.length '0' := by
  induction s with
  | nil => rfl
  | cons c s ih =>
    have : ¬ QMark c ∧ mark c = '0' := by
      rcases h c (by simp) with rfl | ⟨k, hk, rfl⟩
      · decide
      · exact mark_dig k hk
    rw [outline_cons this.1, this.2, ih (fun d hd => h d (by simp [hd]))]; rfl

theorem outline_deco {q : Deco} (h : q.ok = true) (s : Str) : outline (q.text s) = outline s := by
  cases q with
  | none => rfl
  | left q =>
    have : QMark q := by simpa [Deco.ok, QMark, or_assoc] using h
    exact outline_qual this s
  | right q =>
    have : QMark q := by simpa [Deco.ok, QMark, or_assoc] using h
    show outline (s ++ [q]) = _
    rw [outline_append, outline_qual this]; simp [outline, stripped]

/-- The outline of a date. -/
def dateOutline (neg : Bool) (k : Nat) : Str := (if neg then c! "-" else []) ++ (c! "0000" ++ match k with | 0 => [] | 1 => c! "-00" | _ => c! "-00-00")

theorem dateOutline_mem (neg : Bool) (k : Nat) : dateOutline neg k ∈ dateOutlines := by
  match neg, k with
  | true, 0 => decide
  | true, 1 => decide
  | true, _ + 2 => show c! "-0000-00-00" ∈ _; decide
  | false, 0 => decide
  | false, 1 => decide
  | false, _ + 2 => show c! "0000-00-00" ∈ _; decide

theorem outline_minus (s : Str) : outline ('-' :: s) = '-' :: outline s := by rw [outline_cons (by decide)]; rfl
theorem outline_slash (s : Str) : outline ('/' :: s) = '/' :: outline s := by rw [outline_cons (by decide)]; rfl
theorem outline_nil : outline [] = [] := rfl

theorem outline_signed (neg : Bool) (s : Str) : outline (signed neg s) = (if neg then c! "-" else []) ++ outline s := by
  cases neg
  · rfl
  · exact outline_minus s

theorem outline_date (x : Date0) : outline x.text ∈ dateOutlines := by
  obtain ⟨neg, n, t⟩ := x
  have : outline (⟨neg, n, t⟩ : Date0).text = dateOutline neg (match t with | .none => 0 | .month _ => 1 | .day _ _ => 2) := by
    rw [date0_text]
    have hy : outline (yearStr neg n) = (if neg then c! "-" else []) ++ c! "0000" := by
      rw [show yearStr neg n = signed neg (pad4 n) from rfl, outline_signed, outline_pad4]
    cases t <;> simp only [outline_append, outline_minus, outline_pad2, hy, outline_nil, dateOutline, List.append_assoc] <;> cases neg <;> rfl
  rw [this]
  exact dateOutline_mem _ _

theorem outline_year (neg : Bool) (n : Nat) : outline (signed neg (pad4 n)) ∈ dateOutlines := by
  rw [outline_signed, outline_pad4]
  cases neg <;> decide

theorem outline_endpoint {e : Endpoint} (h : e.shape) : outline e.text ∈ dateOutlines := by
  obtain ⟨⟨neg, y, t⟩, qy, qm, qd⟩ := e
  obtain ⟨⟨h1, h2, h3⟩, k1, k2, k3, -⟩ := h
  have : outline (⟨⟨neg, y, t⟩, qy, qm, qd⟩ : Endpoint).text = dateOutline neg (match t with | .none => 0 | .month _ => 1 | .day _ _ => 2) := by
    have hy : outline (qy.text (if neg then '-' :: y else y)) = (if neg then c! "-" else []) ++ c! "0000" := by
      rw [outline_deco k1]
      cases neg
      · show outline y = _; rw [outline_x h2, h1]; rfl
      · show outline ('-' :: y) = _; rw [outline_minus, outline_x h2, h1]; rfl
    unfold Endpoint.text
    rw [outline_append]
    cases t with
    | none => simp only [hy, outline_nil, dateOutline, List.append_nil]
    | month m =>
      simp only [hy, outline_minus, outline_deco k2, outline_x h3.2, h3.1, dateOutline]
      cases neg <;> rfl
    | day m d =>
      simp only [hy, outline_minus, outline_append, outline_deco k2, outline_deco k3, outline_x h3.2.1, outline_x h3.2.2.2, h3.1, h3.2.2.1, dateOutline]
      cases neg <;> rfl
  rw [this]
  exact dateOutline_mem _ _

/-! ### Which outlines there are -/

theorem outlines_date {p : Str} (h : p ∈ dateOutlines) : p ∈ outlines := by
  simp only [outlines, List.mem_append]; exact .inl (.inl (.inl (.inr h)))

theorem outlines_two {p q : Str} (h : p ∈ dateOutlines) (k : q ∈ dateOutlines) : p ++ '/' :: q ∈ outlines := by
  simp only [outlines, List.mem_append]
  exact .inl (.inr (List.mem_flatMap.2 ⟨p, h, List.mem_map.2 ⟨q, k, rfl⟩⟩))

theorem outlines_side {p t : Str} (h : p ∈ dateOutlines) (k : t ∈ ['/' :: p, p ++ c! "/", c! "../" ++ p, p ++ c! "/.."]) : t ∈ outlines := by
  simp only [outlines, List.mem_append]
  exact .inr (List.mem_flatMap.2 ⟨p, h, k⟩)

theorem outline_month (neg : Bool) (n m : Nat) (t : Str) :
    outline (signed neg (pad4 n) ++ '-' :: (pad2 m ++ t)) = dateOutline neg 1 ++ outline t := by
  simp only [outline_append, outline_signed, outline_minus, outline_pad4, outline_pad2, dateOutline]
  cases neg <;> rfl

theorem outline_day (neg : Bool) (d : Nat) (t : Str) : dateOutline neg 1 ++ outline ('-' :: (pad2 d ++ t)) = dateOutline neg 2 ++ outline t := by
  simp only [outline_append, outline_minus, outline_pad2, dateOutline]
  cases neg <;> rfl

theorem outline_hms (hh mi ss : Nat) : outline (hmsText hh mi ss) = c! "00:00:00" := by
  unfold hmsText
  simp only [outline_append, outline_pad2]; rfl

theorem outline_clock (neg : Bool) (y m d hh mi ss : Nat) (z : Zone) : outline (clockText neg y m d hh mi ss z) ∈ timeOutlines := by
  unfold clockText
  simp only [outline_append, outline_pad2, outline_pad4, outline_hms]
  cases z with
  | none => cases neg <;> decide
  | utc => cases neg <;> decide
  | hours b h =>
    have : outline (Zone.hours b h).text = (if b then '-' else '+') :: c! "00" := by
      cases b <;> simp only [Zone.text, Zone.sign] <;> rw [outline_cons (by decide), outline_pad2] <;> rfl
    rw [this]
    cases b <;> cases neg <;> decide
  | full b h k =>
    have : outline (Zone.full b h k).text = (if b then '-' else '+') :: c! "00:00" := by
      cases b <;> simp only [Zone.text, Zone.sign] <;>
        rw [outline_cons (by decide), outline_append, outline_cons (by decide) (pad2 k), outline_pad2, outline_pad2] <;> rfl
    rw [this]
    cases b <;> cases neg <;> decide

theorem outline_loose {a b : Char} (h : LooseDay a b) : outline ['-', a, b] = c! "-00" := by
  have k1 : ∀ a ∈ c! "012Xx", ∀ b ∈ c! "123456789Xx", outline ['-', a, b] = c! "-00" := by decide
  have k2 : ∀ a ∈ c! "3Xx", ∀ b ∈ c! "01Xx", outline ['-', a, b] = c! "-00" := by decide
  obtain ⟨⟨h1, h2⟩ | ⟨h1, h2⟩, -⟩ := h
  · exact k1 a h1 b h2
  · exact k2 a h1 b h2

/-- **C96.** Without qualifiers, and with all digits the same, an accepted text
written as numbers is one of eighty. -/
theorem C96_outline {s : Str} (h : Understood s) (hn : Numeric s) : outline s ∈ outlines := by
  have ha := (C54_language s).1 h
  have no : ∀ {a : Char}, a ∈ s → a ∉ c! "0123456789Xx?~%-/:TZ+." → False := fun h1 h2 => h2 (hn _ h1)
  cases ha with
  | unknown => decide
  | opened => decide
  | date x h => exact outlines_date (outline_date x)
  | time neg y m d hh mi ss z hy V k1 k2 k3 hz =>
    simp only [outlines, List.mem_append]
    exact .inl (.inl (.inr (outline_clock ..)))
  | interval a b ha hb ra rb =>
    rw [outline_append, outline_slash]
    exact outlines_two (outline_endpoint ha.1) (outline_endpoint hb.1)
  | startless t ht x h =>
    rw [outline_append, outline_slash]
    refine outlines_side (outline_date x) ?_
    rcases ht with rfl | rfl
    · simp [outline_nil]
    · show c! ".." ++ '/' :: _ ∈ _; simp
  | endless neg n h t ht =>
    rw [outline_append, outline_slash]
    refine outlines_side (outline_year neg n) ?_
    rcases ht with rfl | rfl
    · simp [outline_nil]
    · show _ ++ '/' :: c! ".." ∈ _; simp
  | qualifiedYear neg n h q hq =>
    rw [outline_append, outline_qual hq, outline_nil, List.append_nil]
    exact outlines_date (outline_year neg n)
  | single e he hn hq hx => exact outlines_date (outline_endpoint he.1)
  | month neg n m hn h1 h2 hy t ht =>
    rw [outline_month]
    cases ht with
    | qualifier _ q hq => rw [outline_qual hq, outline_nil, List.append_nil]; exact outlines_date (dateOutline_mem _ _)
    | dayQualifier _ d _ _ q hq => rw [outline_day, outline_qual hq, outline_nil, List.append_nil]; exact outlines_date (dateOutline_mem _ _)
    | ended _ t ht =>
      refine outlines_side (dateOutline_mem neg 1) ?_
      rcases ht with rfl | rfl <;> rw [outline_slash]
      · simp [outline_nil]
      · show _ ++ '/' :: c! ".." ∈ _; simp
    | dayEnded _ d _ _ t ht =>
      rw [outline_day]
      refine outlines_side (dateOutline_mem neg 2) ?_
      rcases ht with rfl | rfl <;> rw [outline_slash]
      · simp [outline_nil]
      · show _ ++ '/' :: c! ".." ∈ _; simp
    | loose a b hl =>
      have := outline_loose hl
      rw [this]
      show dateOutline false 2 ∈ _
      exact outlines_date (dateOutline_mem _ _)
  | season neg n hn z hy hz =>
    have := outline_month neg n z.code []
    rw [List.append_nil, outline_nil, List.append_nil] at this
    rw [this]
    exact outlines_date (dateOutline_mem _ _)
  | seasonName z w t1 t2 n hw h1 h2 hn hz => exact (no (a := ',') (by simp) (by decide)).elim
  | letter neg n h => exact (no (a := 'Y') (by simp) (by decide)).elim
  | exponential yc ec hy he neg ms es hm hes v hv h =>
    exact (no (a := yc) (by simp) (by rcases (by simpa using hy : yc = 'Y' ∨ yc = 'y') with rfl | rfl <;> decide)).elim
  | significant t v h ds hd hk => exact (no (a := 'S') (by simp) (by decide)).elim
  | grouping n hn g hg =>
    have := outline_month false n g.code []
    rw [List.append_nil, outline_nil, List.append_nil] at this
    rw [show pad4 n ++ '-' :: pad2 g.code = signed false (pad4 n) ++ '-' :: pad2 g.code from rfl, this]
    exact outlines_date (dateOutline_mem _ _)
  | set o c hb cs hc hm =>
    exact (no (a := o) (by simp) (by rcases hb with ⟨rfl, -⟩ | ⟨rfl, -⟩ <;> decide)).elim

example : outline (c! "1985-04-12T23:20:30+05") ∈ outlines :=
  C96_outline ⟨_, rfl⟩ (by unfold Numeric; decide)

/-- A text for the outline of a date. -/
def sample (neg : Bool) (y : Str) : List Str :=
  [c! "", c! "-06", c! "-06-11"].map (fun t => (if neg then c! "-" else []) ++ (y ++ t))

/-- A text for each outline. -/
def samples : List Str :=
  let ds := sample false (c! "2004") ++ sample true (c! "2004")
  [[], c! ".."] ++ ds ++
    [[], c! "Z", c! "+05", c! "-05", c! "+05:30", c! "-05:30"].flatMap
      (fun z => [c! "2004-06-11T10:20:30" ++ z, c! "-2004-06-11T10:20:30" ++ z]) ++
    ds.flatMap (fun p => ds.map (fun q => p ++ '/' :: q)) ++ ds.flatMap (fun p => ['/' :: p, p ++ c! "/", c! "../" ++ p, p ++ c! "/.."])

/-- **C96.** All eighty occur. -/
theorem C96_used : ∀ p ∈ outlines, ∃ s, Understood s ∧ Numeric s ∧ outline s = p := by
  have h1 : samples.map outline = outlines := by decide +kernel
  have h2 : ∀ s ∈ samples, (match parseString s with | .ok _ => true | _ => false) = true := by decide +kernel
  have h3 : ∀ s ∈ samples, ∀ c ∈ s, c ∈ c! "0123456789Xx?~%-/:TZ+." := by decide +kernel
  intro p hp
  rw [← h1] at hp
  obtain ⟨s, hs, e⟩ := List.mem_map.1 hp
  refine ⟨s, ?_, h3 s hs, e⟩
  have := h2 s hs
  unfold Understood
  cases h : parseString s with
  | ok d => exact ⟨d, rfl⟩
  | err e => rw [h] at this; cases this
  | panic => rw [h] at this; cases this

/-! ### One character missing, or one too many -/

/-- A number for each of the eight marks. -/
def markNum (c : Char) : Nat :=
  if c = '0' then 1 else if c = '-' then 2 else if c = '/' then 3 else if c = ':' then 4 else if c = 'T' then 5 else if c = 'Z' then 6
  else if c = '+' then 7 else 8

/-- A number for an outline, to compare them quickly. -/
def outlineNum (p : Str) : Nat := p.foldl (fun n c => 16 * n + markNum c) 0

/-- A search tree of numbers. -/
inductive NumTree where
  | leaf
  | node (l : NumTree) (n : Nat) (r : NumTree)

/-- The numbers of the outlines. -/
def outlineNums : NumTree :=
  .node (.node (.node (.node (.node (.node (.node .leaf 0 .leaf) 136 .leaf) 4369 (.node (.node .leaf 69907 .leaf) 135441 .leaf)) 200977
    (.node (.node (.node .leaf 2167059 .leaf) 3281169 .leaf) 17895953 (.node .leaf 17896328 .leaf))) 142807313 (.node (.node (.node (.node
    .leaf 286335251 .leaf) 554766865 .leaf) 554767240 (.node .leaf 823202321 .leaf)) 2284982545 (.node (.node (.node .leaf 4581429521 .leaf)
    8876269843 .leaf) 13439668753 (.node .leaf 73301824017 .leaf)))) 73301824392 (.node (.node (.node (.node (.node .leaf 73302937873 .leaf)
    142020382993 .leaf) 584938754577 (.node .leaf 1172829184275 .leaf)) 2272325079569 (.node (.node (.node .leaf 2272325079944 .leaf)
    2272326193425 .leaf) 3371836707345 (.node .leaf 9359288504849 .leaf))) 18765267013905 (.node (.node (.node (.node .leaf 18765535318545
    .leaf) 36357201273107 .leaf) 55048883212817 (.node .leaf 300244271174536 .leaf)) 300244272288017 (.node (.node (.node .leaf
    300248833528337 .leaf) 581715220435217 .leaf) 581715488739857 (.node .leaf 2395909138747921 .leaf))))) 9307443525915528 (.node (.node
    (.node (.node (.node (.node .leaf 9307443527029009 .leaf) 9307448088269329 .leaf) 38335645715862033 (.node .leaf 76862533420650769
    .leaf)) 76862533688955409 (.node (.node (.node .leaf 76863632664760849 .leaf) 1229800534730477841 .leaf) 1229800539291718161 (.node
    .leaf 1229819222132068881 .leaf))) 2382705542634344721 (.node (.node (.node (.node .leaf 2382705542902649361 .leaf) 2382706641878454801
    .leaf) 38123288682149581073 (.node .leaf 38123288686710821393 .leaf)) 38123307369551172113 (.node (.node (.node .leaf
    314828936890985550353 .leaf) 314828937989961355793 .leaf) 5037262990256037237265 (.node .leaf 5037262990264361882641 .leaf))))
    5037263008938877587985 (.node (.node (.node (.node (.node .leaf 9759561902630275977745 .leaf) 9759561903729251783185 .leaf)
    80596207844229790122262 (.node .leaf 156152990442084684075537 .leaf)) 156152990442093008720913 (.node (.node (.node .leaf
    156152990460767524426257 .leaf) 1289539325505476814246417 .leaf) 2498447847073488139534614 (.node .leaf 20632629208088728523837969
    .leaf))) 20632629208122826271298065 (.node (.node (.node (.node .leaf 20632629208122826271299345 .leaf) 39975165553173610404844049
    .leaf) 639602648850778865973400081 (.node .leaf 639602648850812963720860177 .leaf)) 639602648850812963720861457 (.node (.node (.node
    .leaf 84511249236471096407236875281 .leaf) 84511249236471096407242118161 .leaf) 2619812449692929899400643286033 (.node .leaf
    2619812449692929899400648528913 .leaf)))))

/-- Search. -/
def isNum (n : Nat) : NumTree → Bool
  | .leaf => false
  | .node l m r => bif Nat.beq n m then true else bif Nat.ble n m then isNum n l else isNum n r

theorem isNum_of {p : Str} (h : p ∈ outlines) : isNum (outlineNum p) outlineNums = true := by
  have : ∀ p ∈ outlines, isNum (outlineNum p) outlineNums = true := by decide +kernel
  exact this p h

/-- One mark missing. -/
def missingOk (p : Str) (i : Nat) : Bool :=
  !isNum (outlineNum (p.eraseIdx i)) outlineNums ||
    (p[i]? == some '-' && (i == 0 || p[i - 1]? == some '/')) || (p[i]? == some '/' && (i == 0 || i + 1 == p.length)) ||
    (p[i]? == some 'Z' && i + 1 == p.length)

theorem outlines_missing : outlines.all (fun p => (List.range p.length).all (missingOk p)) = true := by decide +kernel

/-- Two marks exchanged. -/
def swappedOk (p : Str) (i : Nat) : Bool :=
  !isNum (outlineNum (p.take i ++ ((p.drop (i + 1)).take 1 ++ ((p.drop i).take 1 ++ p.drop (i + 2))))) outlineNums || p[i]? == p[i + 1]? || i + 1 == p.length

theorem outlines_swapped : outlines.all (fun p => (List.range p.length).all (swappedOk p)) = true := by decide +kernel

/-- One mark replaced. -/
def replacedOk (p : Str) (i : Nat) (c : Char) : Bool :=
  !isNum (outlineNum (p.set i c)) outlineNums || p[i]? == some c || (p[i]? == some '+' && c == '-') || (p[i]? == some '-' && c == '+') ||
    (i == 0 && p[i]? == some '-' && c == '/') || (i == 0 && p[i]? == some '/' && c == '-')

theorem outlines_replaced : outlines.all (fun p => (List.range p.length).all (fun i => (c! "0-/:TZ+.").all (replacedOk p i))) = true := by decide +kernel

theorem mark_other {c d : Char} (h : mark c = d) (hd : d ≠ '0') : c = d := by
  unfold mark at h
  split at h
  · exact absurd h.symm hd
  · exact h

theorem outline_length (a : Str) : (outline a).length = (stripped a).length := by simp [outline]

theorem outline_empty {a : Str} (h : (outline a).length = 0) : stripped a = [] := by
  rw [outline_length] at h
  exact List.eq_nil_of_length_eq_zero h

theorem outline_last {a t : Str} (h0 : (outline a).length ≠ 0) (h : (outline a ++ t)[(outline a).length - 1]? = some '/') : ∃ a', stripped a = a' ++ ['/'] := by
  rw [List.getElem?_append_left (by omega)] at h
  have e : outline a = (stripped a).map mark := rfl
  rw [outline_length] at h h0
  rcases List.eq_nil_or_concat (stripped a) with k | ⟨l, x, k⟩
  · rw [k] at h0; simp at h0
  · refine ⟨l, ?_⟩
    rw [e, k] at h
    have : mark x = '/' := by simpa using h
    rw [k, mark_other this (by decide)]; simp

theorem numeric_sub {s t : Str} (h : Numeric s) (k : ∀ c ∈ t, c ∈ s) : Numeric t := fun c hc => h c (k c hc)

/-- **C96.** If a character other than a qualifier is left out of an accepted
text (or added to one), the result is refused, unless it is a sign before a
year, a slash at the beginning or the end, or a `Z` at the end. -/
theorem C96_missing {a b : Str} {c : Char} (h : Understood (a ++ c :: b)) (k : Understood (a ++ b)) (hn : Numeric (a ++ c :: b)) (hc : ¬ QMark c) :
    (c = '-' ∧ Fronted a) ∨ (c = '/' ∧ (stripped a = [] ∨ stripped b = [])) ∨ (c = 'Z' ∧ stripped b = []) := by
  have hp := C96_outline h hn
  have hq := C96_outline k (numeric_sub hn (fun d hd => by simp at hd ⊢; rcases hd with hd | hd <;> simp [hd]))
  rw [outline_append, outline_cons hc] at hp
  rw [outline_append] at hq
  have key := List.all_eq_true.1 outlines_missing _ hp
  have key := List.all_eq_true.1 key (outline a).length (by simp)
  have e : (outline a ++ mark c :: outline b).eraseIdx (outline a).length = outline a ++ outline b := by
    rw [List.eraseIdx_append_of_length_le (Nat.le_refl _)]; simp
  have g : (outline a ++ mark c :: outline b)[(outline a).length]? = some (mark c) := by simp
  unfold missingOk at key
  rw [e, isNum_of hq, g] at key
  simp only [Bool.not_true, Bool.false_or, Bool.or_eq_true, Bool.and_eq_true, beq_iff_eq, Option.some.injEq] at key
  have len : (outline a).length + 1 = (outline a ++ mark c :: outline b).length → stripped b = [] := by
    intro h
    apply outline_empty
    simp at h
    rw [h]; rfl
  rcases key with (⟨h1, h2⟩ | ⟨h1, h2⟩) | ⟨h1, h2⟩
  · refine .inl ⟨mark_other h1 (by decide), ?_⟩
    by_cases h0 : (outline a).length = 0
    · exact .inl (outline_empty h0)
    · exact .inr (outline_last h0 (h2.resolve_left h0))
  · exact .inr (.inl ⟨mark_other h1 (by decide), h2.imp outline_empty len⟩)
  · exact .inr (.inr ⟨mark_other h1 (by decide), len h2⟩)

example : ¬ Understood (c! "204-06-11") := fun h => by
  have := C96_missing (a := c! "20") (b := c! "4-06-11") (c := '0') ⟨_, rfl⟩ h (by unfold Numeric; decide) (by decide)
  rcases this with ⟨h, -⟩ | ⟨h, -⟩ | ⟨h, -⟩ <;> revert h <;> decide

/-- **C96.** Each of the exceptions occurs. -/
theorem C96_unnoticed : Understood (c! "-2004") ∧ Understood (c! "2004/-2005") ∧ Understood (c! "2004/2005") ∧ Understood (c! "/2004") ∧
    Understood (c! "2004/") ∧ Understood (c! "2004") ∧ Understood (c! "2004-06-11T10:20:30Z") ∧ Understood (c! "2004-06-11T10:20:30") :=
  ⟨⟨_, rfl⟩, ⟨_, rfl⟩, ⟨_, rfl⟩, ⟨_, rfl⟩, ⟨_, rfl⟩, ⟨_, rfl⟩, ⟨_, rfl⟩, ⟨_, rfl⟩⟩

/-- **C96.** If two neighbouring characters other than qualifiers are exchanged,
the result is refused, unless they are two digits (or equal). -/
theorem C96_swapped {a b : Str} {x y : Char} (h : Understood (a ++ x :: y :: b)) (k : Understood (a ++ y :: x :: b)) (hn : Numeric (a ++ x :: y :: b))
    (hx : ¬ QMark x) (hy : ¬ QMark y) : x = y ∨ (AnyDigit x ∧ AnyDigit y) := by
  have hp := C96_outline h hn
  have hq := C96_outline k (numeric_sub hn (fun d hd => by simp at hd ⊢; rcases hd with hd | hd | hd | hd <;> simp [hd]))
  rw [outline_append, outline_cons hx, outline_cons hy] at hp
  rw [outline_append, outline_cons hy, outline_cons hx] at hq
  have key := List.all_eq_true.1 outlines_swapped _ hp
  have key := List.all_eq_true.1 key (outline a).length (by simp)
  unfold swappedOk at key
  have e : (outline a ++ mark x :: mark y :: outline b).take (outline a).length ++
      (((outline a ++ mark x :: mark y :: outline b).drop ((outline a).length + 1)).take 1 ++
      (((outline a ++ mark x :: mark y :: outline b).drop (outline a).length).take 1 ++
        (outline a ++ mark x :: mark y :: outline b).drop ((outline a).length + 2))) = outline a ++ mark y :: mark x :: outline b := by
    rw [← List.drop_drop (i := 1) (j := (outline a).length), ← List.drop_drop (i := 2) (j := (outline a).length)]; simp
  rw [e, isNum_of hq] at key
  have m : mark x = mark y := by simpa using key
  by_cases dx : AnyDigit x
  · refine .inr ⟨dx, ?_⟩
    by_cases dy : AnyDigit y
    · exact dy
    · have : y = '0' := by rw [mark, mark, if_pos dx, if_neg dy] at m; exact m.symm
      rw [this]; decide
  · have e : x = mark y := by rw [← m, mark, if_neg dx]
    by_cases dy : AnyDigit y
    · have : x = '0' := by rw [e, mark, if_pos dy]
      exact absurd (by rw [this]; decide) dx
    · left; rw [e, mark, if_neg dy]

example : ¬ Understood (c! "200-406-11") := fun h => by
  have := C96_swapped (a := c! "200") (b := c! "06-11") (x := '4') (y := '-') ⟨_, rfl⟩ h (by unfold Numeric; decide) (by decide) (by decide)
  revert this; decide

/-- **C96.** If a character other than a qualifier is replaced by another such
character, the result is refused, unless both are digits, or it is the sign of
an offset, or the first character is made a slash from a sign or a sign from a
slash. -/
theorem C96_replaced {a b : Str} {x y : Char} (h : Understood (a ++ x :: b)) (k : Understood (a ++ y :: b)) (hn : Numeric (a ++ x :: b))
    (hm : Numeric (a ++ y :: b)) (hx : ¬ QMark x) (hy : ¬ QMark y) :
    x = y ∨ (AnyDigit x ∧ AnyDigit y) ∨ (x = '+' ∧ y = '-') ∨ (x = '-' ∧ y = '+') ∨
      (stripped a = [] ∧ ((x = '-' ∧ y = '/') ∨ (x = '/' ∧ y = '-'))) := by
  have hp := C96_outline h hn
  have hq := C96_outline k hm
  rw [outline_append, outline_cons hx] at hp
  rw [outline_append, outline_cons hy] at hq
  have key := List.all_eq_true.1 outlines_replaced _ hp
  have key := List.all_eq_true.1 key (outline a).length (by simp)
  have my : mark y ∈ c! "0-/:TZ+." := by
    have : ∀ c ∈ c! "0123456789Xx?~%-/:TZ+.", ¬ QMark c → mark c ∈ c! "0-/:TZ+." := by decide
    exact this y (hm y (by simp)) hy
  have key := List.all_eq_true.1 key (mark y) my
  have e : (outline a ++ mark x :: outline b).set (outline a).length (mark y) = outline a ++ mark y :: outline b := by
    rw [List.set_append_right _ _ (Nat.le_refl _)]; simp
  have g : (outline a ++ mark x :: outline b)[(outline a).length]? = some (mark x) := by simp
  unfold replacedOk at key
  rw [e, isNum_of hq, g] at key
  simp only [Bool.not_true, Bool.false_or, Bool.or_eq_true, Bool.and_eq_true, beq_iff_eq, Option.some.injEq] at key
  rcases key with (((m | ⟨h1, h2⟩) | ⟨h1, h2⟩) | ⟨⟨h0, h1⟩, h2⟩) | ⟨⟨h0, h1⟩, h2⟩
  · by_cases dx : AnyDigit x
    · refine .inr (.inl ⟨dx, ?_⟩)
      by_cases dy : AnyDigit y
      · exact dy
      · have : y = '0' := by rw [mark, mark, if_pos dx, if_neg dy] at m; exact m.symm
        rw [this]; decide
    · have e : x = mark y := by rw [← m, mark, if_neg dx]
      by_cases dy : AnyDigit y
      · have : x = '0' := by rw [e, mark, if_pos dy]
        exact absurd (by rw [this]; decide) dx
      · left; rw [e, mark, if_neg dy]
  · exact .inr (.inr (.inl ⟨mark_other h1 (by decide), mark_other h2 (by decide)⟩))
  · exact .inr (.inr (.inr (.inl ⟨mark_other h1 (by decide), mark_other h2 (by decide)⟩)))
  · exact .inr (.inr (.inr (.inr ⟨outline_empty h0, .inl ⟨mark_other h1 (by decide), mark_other h2 (by decide)⟩⟩)))
  · exact .inr (.inr (.inr (.inr ⟨outline_empty h0, .inr ⟨mark_other h1 (by decide), mark_other h2 (by decide)⟩⟩)))

example : ¬ Understood (c! "2004/06-11") := fun h => by
  have := C96_replaced (a := c! "2004") (b := c! "06-11") (x := '-') (y := '/') ⟨_, rfl⟩ h (by unfold Numeric; decide) (by unfold Numeric; decide)
    (by decide) (by decide)
  revert this; decide

/-- **C96.** Each of these exceptions occurs. -/
theorem C96_unnoticed2 : Understood (c! "2004-06-11T10:20:30+05") ∧ Understood (c! "2004-06-11T10:20:30-05") ∧ Understood (c! "-2004") ∧
    Understood (c! "/2004") := ⟨⟨_, rfl⟩, ⟨_, rfl⟩, ⟨_, rfl⟩, ⟨_, rfl⟩⟩

end EDTF
