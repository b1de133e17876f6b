/- C72: what decoding a JSON text into a date gives, for every text. -/
import Verif.PropsJsonText
import Verif.PropsJson
import Verif.PropsYmd
namespace EDTF
open Spec

/-! ### Names -/

theorem foldName_iff (c d : Char) (hd : 97 ≤ d.toNat ∧ d.toNat ≤ 122) : foldKey c = foldKey d ↔ SameLetter c d := by
  have hf : foldKey d = Char.ofNat (d.toNat - 32) := by unfold foldKey; rw [if_pos hd]
  have tab : ∀ n < 123, 97 ≤ n → (Char.ofNat n).toUpper = Char.ofNat (n - 32) ∧ (Char.ofNat (n - 32)).toNat = n - 32 ∧
      foldKey (Char.ofNat (n - 32)) = Char.ofNat (n - 32) := by decide +kernel
  obtain ⟨t1, t2, t3⟩ := tab d.toNat (by omega) hd.1
  rw [Char.ofNat_toNat] at t1
  have tn : ∀ {a b : Char}, a.toNat = b.toNat → a = b := by
    intro a b h; rw [← Char.ofNat_toNat a, h, Char.ofNat_toNat]
  rw [hf]
  unfold SameLetter
  rw [t1]
  constructor
  · intro h
    unfold foldKey at h
    split at h
    · rename_i hc
      obtain ⟨-, u2, -⟩ := tab c.toNat (by omega) hc.1
      have := congrArg Char.toNat h
      rw [u2, t2] at this
      exact .inl (tn (by omega))
    · split at h
      · rename_i hc
        have := congrArg Char.toNat h
        rw [t2] at this
        have e : d.toNat = 115 := by have : (83 : Nat) = d.toNat - 32 := this; omega
        exact .inr (.inr (.inl ⟨small_char hc, small_char e⟩))
      · split at h
        · rename_i hc
          have := congrArg Char.toNat h
          rw [t2] at this
          have e : d.toNat = 107 := by have : (75 : Nat) = d.toNat - 32 := this; omega
          exact .inr (.inr (.inr ⟨small_char hc, small_char e⟩))
        · exact .inr (.inl h)
  · rintro (h | h | ⟨rfl, rfl⟩ | ⟨rfl, rfl⟩)
    · rw [h, hf]
    · rw [h, t3]
    · rfl
    · rfl

theorem nameIs_iff (k n : Str) (hn : ∀ d ∈ n, 97 ≤ d.toNat ∧ d.toNat ≤ 122) : sameKey k n = true ↔ NameIs k n := by
  unfold sameKey
  rw [beq_iff_eq]
  induction k generalizing n with
  | nil =>
    cases n with
    | nil => simp [NameIs]
    | cons d n => simp [NameIs]
  | cons c k ih =>
    cases n with
    | nil => simp [NameIs]
    | cons d n =>
      rw [List.map_cons, List.map_cons, List.cons.injEq, ih n (fun x hx => hn x (List.mem_cons_of_mem _ hx)),
        foldName_iff c d (hn d List.mem_cons_self), NameIs]

theorem nameIs_unique {k n m : Str} (hn : ∀ d ∈ n, 97 ≤ d.toNat ∧ d.toNat ≤ 122) (hm : ∀ d ∈ m, 97 ≤ d.toNat ∧ d.toNat ≤ 122)
    (h : NameIs k n) (h' : NameIs k m) : n.map foldKey = m.map foldKey := by
  rw [← nameIs_iff _ _ hn, sameKey, beq_iff_eq] at h
  rw [← nameIs_iff _ _ hm, sameKey, beq_iff_eq] at h'
  rw [← h, ← h']

theorem given_pos {k : Str × Str} {n : Str} (h : NameIs k.2 n) (v : JV) (ms : List ((Str × Str) × JV)) :
    given n ((k, v) :: ms) = v :: given n ms := by
  unfold given; rw [List.filterMap_cons]; simp only [if_pos h]
theorem given_neg {k : Str × Str} {n : Str} (h : ¬ NameIs k.2 n) (v : JV) (ms : List ((Str × Str) × JV)) :
    given n ((k, v) :: ms) = given n ms := by
  unfold given; rw [List.filterMap_cons]; simp only [if_neg h]

theorem steps_nil {α : Type} {R : α → JV → α → Prop} {a b : α} : Steps R a [] b ↔ b = a := by
  constructor
  · intro h; cases h; rfl
  · rintro rfl; exact .nil
theorem steps_cons {α : Type} {R : α → JV → α → Prop} {a c : α} {v : JV} {vs : List JV} :
    Steps R a (v :: vs) c ↔ ∃ b, R a v b ∧ Steps R b vs c := by
  constructor
  · intro h; cases h with | cons h1 h2 => exact ⟨_, h1, h2⟩
  · rintro ⟨b, h1, h2⟩; exact .cons h1 h2

/-! ### Single values -/

theorem readStr_iff (old : Str) (v : JV) (new : Str) : readStr old v = some new ↔ StrFrom old v new := by
  unfold StrFrom
  cases v <;> simp [readStr, eq_comm]

theorem readBool_iff (old : Bool) (v : JV) (new : Bool) : readBool old v = some new ↔ BoolFrom old v new := by
  unfold BoolFrom
  cases v <;> simp [readBool, eq_comm]

theorem readInt_iff (old : Int) (v : JV) (new : Int) : readInt old v = some new ↔ IntFrom old v new := by
  unfold IntFrom
  cases v <;> simp [readInt, eq_comm (a := old)]
  exact parseInt_iff _ _

theorem digits_all {ds : List Nat} (h : ∀ d ∈ ds, d < 10) : (ds.map dig).all isDig = true := by
  rw [List.all_eq_true]
  intro c hc
  obtain ⟨k, hk, rfl⟩ := List.mem_map.1 hc
  exact (by decide : ∀ k < 10, isDig (dig k) = true) k (h k hk)

theorem readPrec_iff (old : Prec) (v : JV) (new : Prec) : readPrec old v = some new ↔ FlagsFrom old v new := by
  unfold FlagsFrom
  cases v with
  | num l =>
    rw [readPrec]
    constructor
    · intro h
      split at h
      · rename_i hc
        obtain ⟨ds, h1, h2⟩ := digits_map hc.2.1
        injection h with h
        refine .inr ⟨ds, ?_, h1, by rw [h2], ?_⟩
        · rintro rfl; exact hc.1 h2
        · rw [← h, h2, digitsVal_map ds h1]
          rw [h2, digitsVal_map ds h1] at hc
          rw [BitVec.toNat_ofNat, Nat.mod_eq_of_lt hc.2.2]
      · cases h
    · rintro (⟨h, -⟩ | ⟨ds, h0, h1, h2, h3⟩)
      · cases h
      · injection h2 with h2
        subst h2
        have hlt := new.isLt
        rw [digitsVal_map ds h1, ← h3, if_pos ⟨by simpa using h0, digits_all h1, hlt⟩]
        simp
  | _ => simp [readPrec, eq_comm (a := old)]

theorem readPtr_iff {α : Type} {zero : α} {f : α → JV → Option α} {R : α → JV → α → Prop} {v : JV}
    (h : ∀ a b, v ≠ .null → (f a v = some b ↔ R a v b)) (old new : Option α) :
    readPtr zero f old v = some new ↔ PtrFrom zero R old v new := by
  unfold PtrFrom
  have e : v ≠ .null → readPtr zero f old v = (f (old.getD zero) v).map some := by
    intro hv
    cases v <;> first | exact absurd rfl hv | rfl
  by_cases hv : v = .null
  · subst hv; simp [readPtr, eq_comm]
  · rw [e hv, Option.map_eq_some_iff]
    constructor
    · rintro ⟨b, h1, rfl⟩
      exact .inr ⟨hv, b, rfl, (h _ _ hv).1 h1⟩
    · rintro (⟨h1, -⟩ | ⟨-, b, rfl, h1⟩)
      · exact absurd h1 hv
      · exact ⟨b, (h _ _ hv).2 h1, rfl⟩

/-- A document some text stands for. -/
def JWf (v : JV) : Prop := ∃ t, JText v t

theorem number_no_quote {l : Str} (h : JNumber l) : '"' ∉ l := by
  obtain ⟨sign, int, frac, exp, rfl, hs, hi, hf, he⟩ := h
  have hd : ∀ {ds}, JDigits ds → '"' ∉ ds := by
    intro ds h hm
    exact absurd (h.2 _ hm) (by decide)
  simp only [List.mem_append, not_or]
  refine ⟨⟨⟨?_, ?_⟩, ?_⟩, ?_⟩
  · rcases hs with rfl | rfl <;> decide
  · rcases hi with rfl | hi
    · decide
    · exact hd hi.1
  · rcases hf with rfl | ⟨ds, h, rfl⟩
    · decide
    · simp only [List.mem_cons, not_or]; exact ⟨by decide, hd h⟩
  · rcases he with rfl | ⟨e, g, ds, he, hg, h, rfl⟩
    · decide
    · simp only [List.mem_cons, List.mem_append, not_or]
      refine ⟨by rcases he with rfl | rfl <;> decide, ?_, hd h⟩
      rcases hg with rfl | rfl | rfl <;> decide

/-- An escaped text that is a number has no quotes in it. -/
theorem items_trim {raw s : Str} {is : List JItem} {i j : Nat} {n : Int} (h : JItems raw is)
    (e : '"' :: (raw ++ ['"']) = List.replicate i '"' ++ s ++ List.replicate j '"') (hs : Decimal s n) : raw = s := by
  have hq := decimal_no_quote hs
  have hb : '\\' ∉ s := by
    intro hm
    obtain ⟨ds, -, -, h⟩ := hs
    have hd : '\\' ∉ ds.map dig := by
      intro h; obtain ⟨k, -, hk⟩ := List.mem_map.1 h
      have := congrArg isDig hk
      by_cases h10 : k < 10
      · exact absurd hk ((by decide : ∀ k < 10, dig k ≠ '\\') k h10)
      · have e : dig k = '?' := by unfold dig; rw [List.getD_eq_getElem?_getD, List.getElem?_eq_none (by simp; omega)]; rfl
        rw [e] at hk; exact absurd hk (by decide)
    rcases h with ⟨rfl | rfl, -⟩ | ⟨rfl, -⟩
    · exact hd hm
    · rcases List.mem_cons.1 hm with h | h
      · exact absurd h (by decide)
      · exact hd h
    · rcases List.mem_cons.1 hm with h | h
      · exact absurd h (by decide)
      · exact hd h
  -- the first character of `raw` is no quote
  have hi : i = 1 := by
    cases i with
    | zero =>
      cases s with
      | nil => exact absurd rfl hq.1
      | cons c s =>
        simp only [List.replicate_zero, List.nil_append, List.cons_append] at e
        injection e with e _
        exact absurd (by rw [e]; exact List.mem_cons_self) hq.2
    | succ i =>
      cases i with
      | zero => rfl
      | succ i =>
        rw [List.replicate_succ, List.replicate_succ] at e
        simp only [List.cons_append] at e
        injection e with _ e
        cases h with
        | nil =>
          simp only [List.nil_append] at e
          injection e with _ e
          have := congrArg List.length e
          simp at this
          exact absurd (List.length_eq_zero_iff.1 (by omega)) hq.1
        | plain h1 => rw [List.cons_append] at e; injection e with e _; exact absurd e h1
        | escape => rw [List.cons_append] at e; injection e with e _; exact absurd e (by decide)
        | code => rw [List.cons_append] at e; injection e with e _; exact absurd e (by decide)
  subst hi
  have e : raw ++ ['"'] = s ++ List.replicate j '"' := by simpa using e
  cases j with
  | zero =>
    exfalso
    simp only [List.replicate_zero, List.append_nil] at e
    exact hq.2 (by rw [← e]; simp)
  | succ j =>
    rw [List.replicate_succ', ← List.append_assoc] at e
    have e := List.append_cancel_right e
    cases j with
    | zero => simpa using e
    | succ j =>
      exfalso
      -- a quote inside the text comes after a backslash
      have key : ∀ {raw : Str} {is : List JItem}, JItems raw is → ∀ (s r : Str), raw = s ++ '"' :: r → '\\' ∉ s → False := by
        intro raw is h
        induction h with
        | nil => intro s r e; exact absurd e (by simp)
        | plain h1 _ _ _ ih =>
          intro s r e hb
          cases s with
          | nil => injection e with e _; exact h1 e
          | cons c s => injection e with _ e; exact ih s r e (fun h => hb (List.mem_cons_of_mem _ h))
        | escape _ _ ih =>
          intro s r e hb
          cases s with
          | nil => injection e with e _; exact absurd e (by decide)
          | cons c s => injection e with e _; exact hb (by rw [← e]; exact List.mem_cons_self)
        | code _ _ _ _ _ ih =>
          intro s r e hb
          cases s with
          | nil => injection e with e _; exact absurd e (by decide)
          | cons c s => injection e with e _; exact hb (by rw [← e]; exact List.mem_cons_self)
      exact key h s _ (by rw [e, List.replicate_succ]) hb

theorem readTimestamp_iff {v : JV} (hv : JWf v) (old new : Int) : readTimestamp v = some new ↔ TimestampFrom old v new := by
  have ok1 : ∀ t, readTimestamp (.num t) = some new ↔ unmarshalTimestamp t = .ok new := by
    intro t
    rw [readTimestamp]
    cases unmarshalTimestamp t <;> simp
  have ok2 : ∀ t val, readTimestamp (.str t val) = some new ↔ unmarshalTimestamp ('"' :: (t ++ ['"'])) = .ok new := by
    intro t val
    rw [readTimestamp]
    cases unmarshalTimestamp ('"' :: (t ++ ['"'])) <;> simp
  obtain ⟨t, hv⟩ := hv
  unfold TimestampFrom
  cases hv with
  | @num l h =>
    have hq := number_no_quote h
    rw [ok1, C45_accepts]
    constructor
    · rintro ⟨i, j, s, e, h1, h2⟩
      have hs := decimal_no_quote h1
      have hi : i = 0 := by
        cases i with
        | zero => rfl
        | succ i => exact absurd (by rw [e, List.replicate_succ]; simp) hq
      have hj : j = 0 := by
        cases j with
        | zero => rfl
        | succ i => exact absurd (by rw [e, List.replicate_succ]; simp) hq
      subst hi; subst hj
      simp only [List.replicate_zero, List.nil_append, List.append_nil] at e
      subst e
      exact .inl ⟨_, rfl, h1, h2⟩
    · rintro (⟨l', e, h1, h2⟩ | ⟨raw, val, e, -⟩)
      · injection e with e; subst e
        exact ⟨0, 0, _, by simp, h1, h2⟩
      · cases e
  | @str raw val h =>
    obtain ⟨is, h, -⟩ := h
    rw [ok2, C45_accepts]
    constructor
    · rintro ⟨i, j, s, e, h1, h2⟩
      have := items_trim h e h1
      subst this
      exact .inr ⟨_, _, rfl, h1, h2⟩
    · rintro (⟨l', e, -⟩ | ⟨raw', val', e, h1, h2⟩)
      · cases e
      · injection e with e _; subst e
        exact ⟨1, 1, raw, by simp, h1, h2⟩
  | _ => simp [readTimestamp]

theorem jwf_members {ms : List ((Str × Str) × JV)} {t : Str} (h : JMembers ms t) : ∀ m ∈ ms, JWf m.2 := by
  induction ms generalizing t with
  | nil => intro m hm; cases hm
  | cons x ms ih =>
    intro m hm
    cases h with
    | one _ _ _ _ h _ =>
      rcases List.mem_cons.1 hm with rfl | hm
      · exact ⟨_, h⟩
      · cases hm
    | more _ _ _ _ h _ hr =>
      rcases List.mem_cons.1 hm with rfl | hm
      · exact ⟨_, h⟩
      · exact ih hr m hm

theorem jwf_obj {ms : List ((Str × Str) × JV)} (h : JWf (.obj ms)) : ∀ m ∈ ms, JWf m.2 := by
  obtain ⟨t, h⟩ := h
  cases h with
  | obj0 _ => intro m hm; cases hm
  | obj h => exact jwf_members h

/-! ### Records -/

theorem ymdMembers_iff {ms : List ((Str × Str) × JV)} (hw : ∀ m ∈ ms, JWf m.2) (old new : YMD) :
    readMembers YMD.readField old ms = some new ↔ YmdFromMembers old ms new := by
  unfold YmdFromMembers
  induction ms generalizing old with
  | nil =>
    simp only [given, List.filterMap_nil, steps_nil]
    constructor
    · intro h; cases h; exact ⟨rfl, rfl, rfl⟩
    · rintro ⟨h0, h1, h2⟩
      cases old; cases new; simp_all [readMembers]
  | cons m ms ih =>
    obtain ⟨k, v⟩ := m
    have hv : JWf v := hw _ List.mem_cons_self
    have ih := ih (fun m hm => hw m (List.mem_cons_of_mem _ hm))
    have hu : readMembers YMD.readField old ((k, v) :: ms) = some new ↔
        ∃ b, YMD.readField old k.2 v = some b ∧ readMembers YMD.readField b ms = some new := by
      show (YMD.readField old k.2 v).bind _ = _ ↔ _
      rw [Option.bind_eq_some_iff]
    rw [hu]
    simp only [ih]
    have c0 := nameIs_iff k.2 (c! "year") (by decide)
    have c1 := nameIs_iff k.2 (c! "month") (by decide)
    have c2 := nameIs_iff k.2 (c! "day") (by decide)
    by_cases k0 : NameIs k.2 (c! "year")
    · have k1 : ¬ NameIs k.2 (c! "month") := fun h => absurd (nameIs_unique (by decide) (by decide) k0 h) (by decide)
      have k2 : ¬ NameIs k.2 (c! "day") := fun h => absurd (nameIs_unique (by decide) (by decide) k0 h) (by decide)
      have e : YMD.readField old k.2 v = (readInt old.year v).map (fun x => { old with year := x }) := by
        unfold YMD.readField
        rw [if_pos (c0.2 k0)]
      rw [e, given_pos k0, given_neg k1, given_neg k2, steps_cons]
      simp only [Option.map_eq_some_iff]
      constructor
      · rintro ⟨b, ⟨x, hx, rfl⟩, h0, h1, h2⟩
        exact ⟨⟨x, (readInt_iff _ _ _).1 hx, h0⟩, h1, h2⟩
      · rintro ⟨⟨x, hx, h0⟩, h1, h2⟩
        exact ⟨_, ⟨x, (readInt_iff _ _ _).2 hx, rfl⟩, h0, h1, h2⟩
    by_cases k1 : NameIs k.2 (c! "month")
    · have k2 : ¬ NameIs k.2 (c! "day") := fun h => absurd (nameIs_unique (by decide) (by decide) k1 h) (by decide)
      have e : YMD.readField old k.2 v = (readInt old.month v).map (fun x => { old with month := x }) := by
        unfold YMD.readField
        rw [if_neg (fun h => k0 (c0.1 h)), if_pos (c1.2 k1)]
      rw [e, given_neg k0, given_pos k1, given_neg k2, steps_cons]
      simp only [Option.map_eq_some_iff]
      constructor
      · rintro ⟨b, ⟨x, hx, rfl⟩, h0, h1, h2⟩
        exact ⟨h0, ⟨x, (readInt_iff _ _ _).1 hx, h1⟩, h2⟩
      · rintro ⟨h0, ⟨x, hx, h1⟩, h2⟩
        exact ⟨_, ⟨x, (readInt_iff _ _ _).2 hx, rfl⟩, h0, h1, h2⟩
    by_cases k2 : NameIs k.2 (c! "day")
    · have e : YMD.readField old k.2 v = (readInt old.day v).map (fun x => { old with day := x }) := by
        unfold YMD.readField
        rw [if_neg (fun h => k0 (c0.1 h)), if_neg (fun h => k1 (c1.1 h)), if_pos (c2.2 k2)]
      rw [e, given_neg k0, given_neg k1, given_pos k2, steps_cons]
      simp only [Option.map_eq_some_iff]
      constructor
      · rintro ⟨b, ⟨x, hx, rfl⟩, h0, h1, h2⟩
        exact ⟨h0, h1, ⟨x, (readInt_iff _ _ _).1 hx, h2⟩⟩
      · rintro ⟨h0, h1, ⟨x, hx, h2⟩⟩
        exact ⟨_, ⟨x, (readInt_iff _ _ _).2 hx, rfl⟩, h0, h1, h2⟩
    have e : YMD.readField old k.2 v = some old := by
      unfold YMD.readField
      rw [if_neg (fun h => k0 (c0.1 h)), if_neg (fun h => k1 (c1.1 h)), if_neg (fun h => k2 (c2.1 h))]
    rw [e, given_neg k0, given_neg k1, given_neg k2]
    constructor
    · rintro ⟨b, h, hs⟩; cases h; exact hs
    · intro h; exact ⟨old, rfl, h⟩

theorem ymdFrom_iff {v : JV} (hv : JWf v) (old new : YMD) : YMD.ofJson old v = some new ↔ YmdFrom old v new := by
  unfold YmdFrom
  cases v with
  | null => simp [YMD.ofJson, eq_comm]
  | obj ms =>
    rw [YMD.ofJson, ymdMembers_iff (jwf_obj hv)]
    simp
  | _ => simp [YMD.ofJson]

theorem dateMembers_iff {ms : List ((Str × Str) × JV)} (hw : ∀ m ∈ ms, JWf m.2) (old new : Date) :
    readMembers Date.readField old ms = some new ↔ DateFromMembers old ms new := by
  unfold DateFromMembers
  induction ms generalizing old with
  | nil =>
    simp only [given, List.filterMap_nil, steps_nil]
    constructor
    · intro h; cases h; exact ⟨rfl, rfl, rfl, rfl, rfl, rfl, rfl, rfl, rfl, rfl⟩
    · rintro ⟨h0, h1, h2, h3, h4, h5, h6, h7, h8, h9⟩
      cases old; cases new; simp_all [readMembers]
  | cons m ms ih =>
    obtain ⟨k, v⟩ := m
    have hv : JWf v := hw _ List.mem_cons_self
    have ih := ih (fun m hm => hw m (List.mem_cons_of_mem _ hm))
    have hu : readMembers Date.readField old ((k, v) :: ms) = some new ↔
        ∃ b, Date.readField old k.2 v = some b ∧ readMembers Date.readField b ms = some new := by
      show (Date.readField old k.2 v).bind _ = _ ↔ _
      rw [Option.bind_eq_some_iff]
    rw [hu]
    simp only [ih]
    have c0 := nameIs_iff k.2 (c! "datetime") (by decide)
    have c1 := nameIs_iff k.2 (c! "timestamp") (by decide)
    have c2 := nameIs_iff k.2 (c! "ymd") (by decide)
    have c3 := nameIs_iff k.2 (c! "uncertain") (by decide)
    have c4 := nameIs_iff k.2 (c! "approximate") (by decide)
    have c5 := nameIs_iff k.2 (c! "unspecified") (by decide)
    have c6 := nameIs_iff k.2 (c! "precision") (by decide)
    have c7 := nameIs_iff k.2 (c! "open") (by decide)
    have c8 := nameIs_iff k.2 (c! "unknown") (by decide)
    have c9 := nameIs_iff k.2 (c! "inclusivity") (by decide)
    by_cases k0 : NameIs k.2 (c! "datetime")
    · have k1 : ¬ NameIs k.2 (c! "timestamp") := fun h => absurd (nameIs_unique (by decide) (by decide) k0 h) (by decide)
      have k2 : ¬ NameIs k.2 (c! "ymd") := fun h => absurd (nameIs_unique (by decide) (by decide) k0 h) (by decide)
      have k3 : ¬ NameIs k.2 (c! "uncertain") := fun h => absurd (nameIs_unique (by decide) (by decide) k0 h) (by decide)
      have k4 : ¬ NameIs k.2 (c! "approximate") := fun h => absurd (nameIs_unique (by decide) (by decide) k0 h) (by decide)
      have k5 : ¬ NameIs k.2 (c! "unspecified") := fun h => absurd (nameIs_unique (by decide) (by decide) k0 h) (by decide)
      have k6 : ¬ NameIs k.2 (c! "precision") := fun h => absurd (nameIs_unique (by decide) (by decide) k0 h) (by decide)
      have k7 : ¬ NameIs k.2 (c! "open") := fun h => absurd (nameIs_unique (by decide) (by decide) k0 h) (by decide)
      have k8 : ¬ NameIs k.2 (c! "unknown") := fun h => absurd (nameIs_unique (by decide) (by decide) k0 h) (by decide)
      have k9 : ¬ NameIs k.2 (c! "inclusivity") := fun h => absurd (nameIs_unique (by decide) (by decide) k0 h) (by decide)
      have e : Date.readField old k.2 v = (readStr old.dateTime v).map (fun x => { old with dateTime := x }) := by
        unfold Date.readField
        rw [if_pos (c0.2 k0)]
      rw [e, given_pos k0, given_neg k1, given_neg k2, given_neg k3, given_neg k4, given_neg k5, given_neg k6, given_neg k7, given_neg k8, given_neg k9, steps_cons]
      simp only [Option.map_eq_some_iff]
      constructor
      · rintro ⟨b, ⟨x, hx, rfl⟩, h0, h1, h2, h3, h4, h5, h6, h7, h8, h9⟩
        exact ⟨⟨x, (readStr_iff _ _ _).1 hx, h0⟩, h1, h2, h3, h4, h5, h6, h7, h8, h9⟩
      · rintro ⟨⟨x, hx, h0⟩, h1, h2, h3, h4, h5, h6, h7, h8, h9⟩
        exact ⟨_, ⟨x, (readStr_iff _ _ _).2 hx, rfl⟩, h0, h1, h2, h3, h4, h5, h6, h7, h8, h9⟩
    by_cases k1 : NameIs k.2 (c! "timestamp")
    · have k2 : ¬ NameIs k.2 (c! "ymd") := fun h => absurd (nameIs_unique (by decide) (by decide) k1 h) (by decide)
      have k3 : ¬ NameIs k.2 (c! "uncertain") := fun h => absurd (nameIs_unique (by decide) (by decide) k1 h) (by decide)
      have k4 : ¬ NameIs k.2 (c! "approximate") := fun h => absurd (nameIs_unique (by decide) (by decide) k1 h) (by decide)
      have k5 : ¬ NameIs k.2 (c! "unspecified") := fun h => absurd (nameIs_unique (by decide) (by decide) k1 h) (by decide)
      have k6 : ¬ NameIs k.2 (c! "precision") := fun h => absurd (nameIs_unique (by decide) (by decide) k1 h) (by decide)
      have k7 : ¬ NameIs k.2 (c! "open") := fun h => absurd (nameIs_unique (by decide) (by decide) k1 h) (by decide)
      have k8 : ¬ NameIs k.2 (c! "unknown") := fun h => absurd (nameIs_unique (by decide) (by decide) k1 h) (by decide)
      have k9 : ¬ NameIs k.2 (c! "inclusivity") := fun h => absurd (nameIs_unique (by decide) (by decide) k1 h) (by decide)
      have e : Date.readField old k.2 v = (readPtr 0 (fun _ w => readTimestamp w) old.timestamp v).map (fun x => { old with timestamp := x }) := by
        unfold Date.readField
        rw [if_neg (fun h => k0 (c0.1 h)), if_pos (c1.2 k1)]
      rw [e, given_neg k0, given_pos k1, given_neg k2, given_neg k3, given_neg k4, given_neg k5, given_neg k6, given_neg k7, given_neg k8, given_neg k9, steps_cons]
      simp only [Option.map_eq_some_iff]
      constructor
      · rintro ⟨b, ⟨x, hx, rfl⟩, h0, h1, h2, h3, h4, h5, h6, h7, h8, h9⟩
        exact ⟨h0, ⟨x, (readPtr_iff (fun a b _ => readTimestamp_iff hv a b) _ _).1 hx, h1⟩, h2, h3, h4, h5, h6, h7, h8, h9⟩
      · rintro ⟨h0, ⟨x, hx, h1⟩, h2, h3, h4, h5, h6, h7, h8, h9⟩
        exact ⟨_, ⟨x, (readPtr_iff (fun a b _ => readTimestamp_iff hv a b) _ _).2 hx, rfl⟩, h0, h1, h2, h3, h4, h5, h6, h7, h8, h9⟩
    by_cases k2 : NameIs k.2 (c! "ymd")
    · have k3 : ¬ NameIs k.2 (c! "uncertain") := fun h => absurd (nameIs_unique (by decide) (by decide) k2 h) (by decide)
      have k4 : ¬ NameIs k.2 (c! "approximate") := fun h => absurd (nameIs_unique (by decide) (by decide) k2 h) (by decide)
      have k5 : ¬ NameIs k.2 (c! "unspecified") := fun h => absurd (nameIs_unique (by decide) (by decide) k2 h) (by decide)
      have k6 : ¬ NameIs k.2 (c! "precision") := fun h => absurd (nameIs_unique (by decide) (by decide) k2 h) (by decide)
      have k7 : ¬ NameIs k.2 (c! "open") := fun h => absurd (nameIs_unique (by decide) (by decide) k2 h) (by decide)
      have k8 : ¬ NameIs k.2 (c! "unknown") := fun h => absurd (nameIs_unique (by decide) (by decide) k2 h) (by decide)
      have k9 : ¬ NameIs k.2 (c! "inclusivity") := fun h => absurd (nameIs_unique (by decide) (by decide) k2 h) (by decide)
      have e : Date.readField old k.2 v = (readPtr ⟨0, 0, 0⟩ YMD.ofJson old.ymd v).map (fun x => { old with ymd := x }) := by
        unfold Date.readField
        rw [if_neg (fun h => k0 (c0.1 h)), if_neg (fun h => k1 (c1.1 h)), if_pos (c2.2 k2)]
      rw [e, given_neg k0, given_neg k1, given_pos k2, given_neg k3, given_neg k4, given_neg k5, given_neg k6, given_neg k7, given_neg k8, given_neg k9, steps_cons]
      simp only [Option.map_eq_some_iff]
      constructor
      · rintro ⟨b, ⟨x, hx, rfl⟩, h0, h1, h2, h3, h4, h5, h6, h7, h8, h9⟩
        exact ⟨h0, h1, ⟨x, (readPtr_iff (fun a b _ => ymdFrom_iff hv a b) _ _).1 hx, h2⟩, h3, h4, h5, h6, h7, h8, h9⟩
      · rintro ⟨h0, h1, ⟨x, hx, h2⟩, h3, h4, h5, h6, h7, h8, h9⟩
        exact ⟨_, ⟨x, (readPtr_iff (fun a b _ => ymdFrom_iff hv a b) _ _).2 hx, rfl⟩, h0, h1, h2, h3, h4, h5, h6, h7, h8, h9⟩
    by_cases k3 : NameIs k.2 (c! "uncertain")
    · have k4 : ¬ NameIs k.2 (c! "approximate") := fun h => absurd (nameIs_unique (by decide) (by decide) k3 h) (by decide)
      have k5 : ¬ NameIs k.2 (c! "unspecified") := fun h => absurd (nameIs_unique (by decide) (by decide) k3 h) (by decide)
      have k6 : ¬ NameIs k.2 (c! "precision") := fun h => absurd (nameIs_unique (by decide) (by decide) k3 h) (by decide)
      have k7 : ¬ NameIs k.2 (c! "open") := fun h => absurd (nameIs_unique (by decide) (by decide) k3 h) (by decide)
      have k8 : ¬ NameIs k.2 (c! "unknown") := fun h => absurd (nameIs_unique (by decide) (by decide) k3 h) (by decide)
      have k9 : ¬ NameIs k.2 (c! "inclusivity") := fun h => absurd (nameIs_unique (by decide) (by decide) k3 h) (by decide)
      have e : Date.readField old k.2 v = (readPrec old.uncertain v).map (fun x => { old with uncertain := x }) := by
        unfold Date.readField
        rw [if_neg (fun h => k0 (c0.1 h)), if_neg (fun h => k1 (c1.1 h)), if_neg (fun h => k2 (c2.1 h)), if_pos (c3.2 k3)]
      rw [e, given_neg k0, given_neg k1, given_neg k2, given_pos k3, given_neg k4, given_neg k5, given_neg k6, given_neg k7, given_neg k8, given_neg k9, steps_cons]
      simp only [Option.map_eq_some_iff]
      constructor
      · rintro ⟨b, ⟨x, hx, rfl⟩, h0, h1, h2, h3, h4, h5, h6, h7, h8, h9⟩
        exact ⟨h0, h1, h2, ⟨x, (readPrec_iff _ _ _).1 hx, h3⟩, h4, h5, h6, h7, h8, h9⟩
      · rintro ⟨h0, h1, h2, ⟨x, hx, h3⟩, h4, h5, h6, h7, h8, h9⟩
        exact ⟨_, ⟨x, (readPrec_iff _ _ _).2 hx, rfl⟩, h0, h1, h2, h3, h4, h5, h6, h7, h8, h9⟩
    by_cases k4 : NameIs k.2 (c! "approximate")
    · have k5 : ¬ NameIs k.2 (c! "unspecified") := fun h => absurd (nameIs_unique (by decide) (by decide) k4 h) (by decide)
      have k6 : ¬ NameIs k.2 (c! "precision") := fun h => absurd (nameIs_unique (by decide) (by decide) k4 h) (by decide)
      have k7 : ¬ NameIs k.2 (c! "open") := fun h => absurd (nameIs_unique (by decide) (by decide) k4 h) (by decide)
      have k8 : ¬ NameIs k.2 (c! "unknown") := fun h => absurd (nameIs_unique (by decide) (by decide) k4 h) (by decide)
      have k9 : ¬ NameIs k.2 (c! "inclusivity") := fun h => absurd (nameIs_unique (by decide) (by decide) k4 h) (by decide)
      have e : Date.readField old k.2 v = (readPrec old.approximate v).map (fun x => { old with approximate := x }) := by
        unfold Date.readField
        rw [if_neg (fun h => k0 (c0.1 h)), if_neg (fun h => k1 (c1.1 h)), if_neg (fun h => k2 (c2.1 h)), if_neg (fun h => k3 (c3.1 h)), if_pos (c4.2 k4)]
      rw [e, given_neg k0, given_neg k1, given_neg k2, given_neg k3, given_pos k4, given_neg k5, given_neg k6, given_neg k7, given_neg k8, given_neg k9, steps_cons]
      simp only [Option.map_eq_some_iff]
      constructor
      · rintro ⟨b, ⟨x, hx, rfl⟩, h0, h1, h2, h3, h4, h5, h6, h7, h8, h9⟩
        exact ⟨h0, h1, h2, h3, ⟨x, (readPrec_iff _ _ _).1 hx, h4⟩, h5, h6, h7, h8, h9⟩
      · rintro ⟨h0, h1, h2, h3, ⟨x, hx, h4⟩, h5, h6, h7, h8, h9⟩
        exact ⟨_, ⟨x, (readPrec_iff _ _ _).2 hx, rfl⟩, h0, h1, h2, h3, h4, h5, h6, h7, h8, h9⟩
    by_cases k5 : NameIs k.2 (c! "unspecified")
    · have k6 : ¬ NameIs k.2 (c! "precision") := fun h => absurd (nameIs_unique (by decide) (by decide) k5 h) (by decide)
      have k7 : ¬ NameIs k.2 (c! "open") := fun h => absurd (nameIs_unique (by decide) (by decide) k5 h) (by decide)
      have k8 : ¬ NameIs k.2 (c! "unknown") := fun h => absurd (nameIs_unique (by decide) (by decide) k5 h) (by decide)
      have k9 : ¬ NameIs k.2 (c! "inclusivity") := fun h => absurd (nameIs_unique (by decide) (by decide) k5 h) (by decide)
      have e : Date.readField old k.2 v = (readPrec old.unspecified v).map (fun x => { old with unspecified := x }) := by
        unfold Date.readField
        rw [if_neg (fun h => k0 (c0.1 h)), if_neg (fun h => k1 (c1.1 h)), if_neg (fun h => k2 (c2.1 h)), if_neg (fun h => k3 (c3.1 h)), if_neg (fun h => k4 (c4.1 h)), if_pos (c5.2 k5)]
      rw [e, given_neg k0, given_neg k1, given_neg k2, given_neg k3, given_neg k4, given_pos k5, given_neg k6, given_neg k7, given_neg k8, given_neg k9, steps_cons]
      simp only [Option.map_eq_some_iff]
      constructor
      · rintro ⟨b, ⟨x, hx, rfl⟩, h0, h1, h2, h3, h4, h5, h6, h7, h8, h9⟩
        exact ⟨h0, h1, h2, h3, h4, ⟨x, (readPrec_iff _ _ _).1 hx, h5⟩, h6, h7, h8, h9⟩
      · rintro ⟨h0, h1, h2, h3, h4, ⟨x, hx, h5⟩, h6, h7, h8, h9⟩
        exact ⟨_, ⟨x, (readPrec_iff _ _ _).2 hx, rfl⟩, h0, h1, h2, h3, h4, h5, h6, h7, h8, h9⟩
    by_cases k6 : NameIs k.2 (c! "precision")
    · have k7 : ¬ NameIs k.2 (c! "open") := fun h => absurd (nameIs_unique (by decide) (by decide) k6 h) (by decide)
      have k8 : ¬ NameIs k.2 (c! "unknown") := fun h => absurd (nameIs_unique (by decide) (by decide) k6 h) (by decide)
      have k9 : ¬ NameIs k.2 (c! "inclusivity") := fun h => absurd (nameIs_unique (by decide) (by decide) k6 h) (by decide)
      have e : Date.readField old k.2 v = (readPrec old.precision v).map (fun x => { old with precision := x }) := by
        unfold Date.readField
        rw [if_neg (fun h => k0 (c0.1 h)), if_neg (fun h => k1 (c1.1 h)), if_neg (fun h => k2 (c2.1 h)), if_neg (fun h => k3 (c3.1 h)), if_neg (fun h => k4 (c4.1 h)), if_neg (fun h => k5 (c5.1 h)), if_pos (c6.2 k6)]
      rw [e, given_neg k0, given_neg k1, given_neg k2, given_neg k3, given_neg k4, given_neg k5, given_pos k6, given_neg k7, given_neg k8, given_neg k9, steps_cons]
      simp only [Option.map_eq_some_iff]
      constructor
      · rintro ⟨b, ⟨x, hx, rfl⟩, h0, h1, h2, h3, h4, h5, h6, h7, h8, h9⟩
        exact ⟨h0, h1, h2, h3, h4, h5, ⟨x, (readPrec_iff _ _ _).1 hx, h6⟩, h7, h8, h9⟩
      · rintro ⟨h0, h1, h2, h3, h4, h5, ⟨x, hx, h6⟩, h7, h8, h9⟩
        exact ⟨_, ⟨x, (readPrec_iff _ _ _).2 hx, rfl⟩, h0, h1, h2, h3, h4, h5, h6, h7, h8, h9⟩
    by_cases k7 : NameIs k.2 (c! "open")
    · have k8 : ¬ NameIs k.2 (c! "unknown") := fun h => absurd (nameIs_unique (by decide) (by decide) k7 h) (by decide)
      have k9 : ¬ NameIs k.2 (c! "inclusivity") := fun h => absurd (nameIs_unique (by decide) (by decide) k7 h) (by decide)
      have e : Date.readField old k.2 v = (readBool old.isOpen v).map (fun x => { old with isOpen := x }) := by
        unfold Date.readField
        rw [if_neg (fun h => k0 (c0.1 h)), if_neg (fun h => k1 (c1.1 h)), if_neg (fun h => k2 (c2.1 h)), if_neg (fun h => k3 (c3.1 h)), if_neg (fun h => k4 (c4.1 h)), if_neg (fun h => k5 (c5.1 h)), if_neg (fun h => k6 (c6.1 h)), if_pos (c7.2 k7)]
      rw [e, given_neg k0, given_neg k1, given_neg k2, given_neg k3, given_neg k4, given_neg k5, given_neg k6, given_pos k7, given_neg k8, given_neg k9, steps_cons]
      simp only [Option.map_eq_some_iff]
      constructor
      · rintro ⟨b, ⟨x, hx, rfl⟩, h0, h1, h2, h3, h4, h5, h6, h7, h8, h9⟩
        exact ⟨h0, h1, h2, h3, h4, h5, h6, ⟨x, (readBool_iff _ _ _).1 hx, h7⟩, h8, h9⟩
      · rintro ⟨h0, h1, h2, h3, h4, h5, h6, ⟨x, hx, h7⟩, h8, h9⟩
        exact ⟨_, ⟨x, (readBool_iff _ _ _).2 hx, rfl⟩, h0, h1, h2, h3, h4, h5, h6, h7, h8, h9⟩
    by_cases k8 : NameIs k.2 (c! "unknown")
    · have k9 : ¬ NameIs k.2 (c! "inclusivity") := fun h => absurd (nameIs_unique (by decide) (by decide) k8 h) (by decide)
      have e : Date.readField old k.2 v = (readBool old.unknown v).map (fun x => { old with unknown := x }) := by
        unfold Date.readField
        rw [if_neg (fun h => k0 (c0.1 h)), if_neg (fun h => k1 (c1.1 h)), if_neg (fun h => k2 (c2.1 h)), if_neg (fun h => k3 (c3.1 h)), if_neg (fun h => k4 (c4.1 h)), if_neg (fun h => k5 (c5.1 h)), if_neg (fun h => k6 (c6.1 h)), if_neg (fun h => k7 (c7.1 h)), if_pos (c8.2 k8)]
      rw [e, given_neg k0, given_neg k1, given_neg k2, given_neg k3, given_neg k4, given_neg k5, given_neg k6, given_neg k7, given_pos k8, given_neg k9, steps_cons]
      simp only [Option.map_eq_some_iff]
      constructor
      · rintro ⟨b, ⟨x, hx, rfl⟩, h0, h1, h2, h3, h4, h5, h6, h7, h8, h9⟩
        exact ⟨h0, h1, h2, h3, h4, h5, h6, h7, ⟨x, (readBool_iff _ _ _).1 hx, h8⟩, h9⟩
      · rintro ⟨h0, h1, h2, h3, h4, h5, h6, h7, ⟨x, hx, h8⟩, h9⟩
        exact ⟨_, ⟨x, (readBool_iff _ _ _).2 hx, rfl⟩, h0, h1, h2, h3, h4, h5, h6, h7, h8, h9⟩
    by_cases k9 : NameIs k.2 (c! "inclusivity")
    · have e : Date.readField old k.2 v = (readPrec old.inclusivity v).map (fun x => { old with inclusivity := x }) := by
        unfold Date.readField
        rw [if_neg (fun h => k0 (c0.1 h)), if_neg (fun h => k1 (c1.1 h)), if_neg (fun h => k2 (c2.1 h)), if_neg (fun h => k3 (c3.1 h)), if_neg (fun h => k4 (c4.1 h)), if_neg (fun h => k5 (c5.1 h)), if_neg (fun h => k6 (c6.1 h)), if_neg (fun h => k7 (c7.1 h)), if_neg (fun h => k8 (c8.1 h)), if_pos (c9.2 k9)]
      rw [e, given_neg k0, given_neg k1, given_neg k2, given_neg k3, given_neg k4, given_neg k5, given_neg k6, given_neg k7, given_neg k8, given_pos k9, steps_cons]
      simp only [Option.map_eq_some_iff]
      constructor
      · rintro ⟨b, ⟨x, hx, rfl⟩, h0, h1, h2, h3, h4, h5, h6, h7, h8, h9⟩
        exact ⟨h0, h1, h2, h3, h4, h5, h6, h7, h8, ⟨x, (readPrec_iff _ _ _).1 hx, h9⟩⟩
      · rintro ⟨h0, h1, h2, h3, h4, h5, h6, h7, h8, ⟨x, hx, h9⟩⟩
        exact ⟨_, ⟨x, (readPrec_iff _ _ _).2 hx, rfl⟩, h0, h1, h2, h3, h4, h5, h6, h7, h8, h9⟩
    have e : Date.readField old k.2 v = some old := by
      unfold Date.readField
      rw [if_neg (fun h => k0 (c0.1 h)), if_neg (fun h => k1 (c1.1 h)), if_neg (fun h => k2 (c2.1 h)), if_neg (fun h => k3 (c3.1 h)), if_neg (fun h => k4 (c4.1 h)), if_neg (fun h => k5 (c5.1 h)), if_neg (fun h => k6 (c6.1 h)), if_neg (fun h => k7 (c7.1 h)), if_neg (fun h => k8 (c8.1 h)), if_neg (fun h => k9 (c9.1 h))]
    rw [e, given_neg k0, given_neg k1, given_neg k2, given_neg k3, given_neg k4, given_neg k5, given_neg k6, given_neg k7, given_neg k8, given_neg k9]
    constructor
    · rintro ⟨b, h, hs⟩; cases h; exact hs
    · intro h; exact ⟨old, rfl, h⟩

theorem dateFrom_iff {v : JV} (hv : JWf v) (old new : Date) : Date.ofJson old v = some new ↔ DateFrom old v new := by
  unfold DateFrom
  cases v with
  | null => simp [Date.ofJson, eq_comm]
  | obj ms =>
    rw [Date.ofJson, dateMembers_iff (jwf_obj hv)]
    simp
  | _ => simp [Date.ofJson]

theorem dateRangeMembers_iff {ms : List ((Str × Str) × JV)} (hw : ∀ m ∈ ms, JWf m.2) (old new : DateRange) :
    readMembers DateRange.readField old ms = some new ↔ DateRangeFromMembers old ms new := by
  unfold DateRangeFromMembers
  induction ms generalizing old with
  | nil =>
    simp only [given, List.filterMap_nil, steps_nil]
    constructor
    · intro h; cases h; exact ⟨rfl, rfl, rfl⟩
    · rintro ⟨h0, h1, h2⟩
      cases old; cases new; simp_all [readMembers]
  | cons m ms ih =>
    obtain ⟨k, v⟩ := m
    have hv : JWf v := hw _ List.mem_cons_self
    have ih := ih (fun m hm => hw m (List.mem_cons_of_mem _ hm))
    have hu : readMembers DateRange.readField old ((k, v) :: ms) = some new ↔
        ∃ b, DateRange.readField old k.2 v = some b ∧ readMembers DateRange.readField b ms = some new := by
      show (DateRange.readField old k.2 v).bind _ = _ ↔ _
      rw [Option.bind_eq_some_iff]
    rw [hu]
    simp only [ih]
    have c0 := nameIs_iff k.2 (c! "edtf") (by decide)
    have c1 := nameIs_iff k.2 (c! "lower") (by decide)
    have c2 := nameIs_iff k.2 (c! "upper") (by decide)
    by_cases k0 : NameIs k.2 (c! "edtf")
    · have k1 : ¬ NameIs k.2 (c! "lower") := fun h => absurd (nameIs_unique (by decide) (by decide) k0 h) (by decide)
      have k2 : ¬ NameIs k.2 (c! "upper") := fun h => absurd (nameIs_unique (by decide) (by decide) k0 h) (by decide)
      have e : DateRange.readField old k.2 v = (readStr old.edtf v).map (fun x => { old with edtf := x }) := by
        unfold DateRange.readField
        rw [if_pos (c0.2 k0)]
      rw [e, given_pos k0, given_neg k1, given_neg k2, steps_cons]
      simp only [Option.map_eq_some_iff]
      constructor
      · rintro ⟨b, ⟨x, hx, rfl⟩, h0, h1, h2⟩
        exact ⟨⟨x, (readStr_iff _ _ _).1 hx, h0⟩, h1, h2⟩
      · rintro ⟨⟨x, hx, h0⟩, h1, h2⟩
        exact ⟨_, ⟨x, (readStr_iff _ _ _).2 hx, rfl⟩, h0, h1, h2⟩
    by_cases k1 : NameIs k.2 (c! "lower")
    · have k2 : ¬ NameIs k.2 (c! "upper") := fun h => absurd (nameIs_unique (by decide) (by decide) k1 h) (by decide)
      have e : DateRange.readField old k.2 v = (readPtr {} Date.ofJson old.lower v).map (fun x => { old with lower := x }) := by
        unfold DateRange.readField
        rw [if_neg (fun h => k0 (c0.1 h)), if_pos (c1.2 k1)]
      rw [e, given_neg k0, given_pos k1, given_neg k2, steps_cons]
      simp only [Option.map_eq_some_iff]
      constructor
      · rintro ⟨b, ⟨x, hx, rfl⟩, h0, h1, h2⟩
        exact ⟨h0, ⟨x, (readPtr_iff (fun a b _ => dateFrom_iff hv a b) _ _).1 hx, h1⟩, h2⟩
      · rintro ⟨h0, ⟨x, hx, h1⟩, h2⟩
        exact ⟨_, ⟨x, (readPtr_iff (fun a b _ => dateFrom_iff hv a b) _ _).2 hx, rfl⟩, h0, h1, h2⟩
    by_cases k2 : NameIs k.2 (c! "upper")
    · have e : DateRange.readField old k.2 v = (readPtr {} Date.ofJson old.upper v).map (fun x => { old with upper := x }) := by
        unfold DateRange.readField
        rw [if_neg (fun h => k0 (c0.1 h)), if_neg (fun h => k1 (c1.1 h)), if_pos (c2.2 k2)]
      rw [e, given_neg k0, given_neg k1, given_pos k2, steps_cons]
      simp only [Option.map_eq_some_iff]
      constructor
      · rintro ⟨b, ⟨x, hx, rfl⟩, h0, h1, h2⟩
        exact ⟨h0, h1, ⟨x, (readPtr_iff (fun a b _ => dateFrom_iff hv a b) _ _).1 hx, h2⟩⟩
      · rintro ⟨h0, h1, ⟨x, hx, h2⟩⟩
        exact ⟨_, ⟨x, (readPtr_iff (fun a b _ => dateFrom_iff hv a b) _ _).2 hx, rfl⟩, h0, h1, h2⟩
    have e : DateRange.readField old k.2 v = some old := by
      unfold DateRange.readField
      rw [if_neg (fun h => k0 (c0.1 h)), if_neg (fun h => k1 (c1.1 h)), if_neg (fun h => k2 (c2.1 h))]
    rw [e, given_neg k0, given_neg k1, given_neg k2]
    constructor
    · rintro ⟨b, h, hs⟩; cases h; exact hs
    · intro h; exact ⟨old, rfl, h⟩

theorem dateRangeFrom_iff {v : JV} (hv : JWf v) (old new : DateRange) : DateRange.ofJson old v = some new ↔ DateRangeFrom old v new := by
  unfold DateRangeFrom
  cases v with
  | null => simp [DateRange.ofJson, eq_comm]
  | obj ms =>
    rw [DateRange.ofJson, dateRangeMembers_iff (jwf_obj hv)]
    simp
  | _ => simp [DateRange.ofJson]

theorem edtfMembers_iff {ms : List ((Str × Str) × JV)} (hw : ∀ m ∈ ms, JWf m.2) (old new : EDTFDate) :
    readMembers EDTFDate.readField old ms = some new ↔ EdtfFromMembers old ms new := by
  unfold EdtfFromMembers
  induction ms generalizing old with
  | nil =>
    simp only [given, List.filterMap_nil, steps_nil]
    constructor
    · intro h; cases h; exact ⟨rfl, rfl, rfl, rfl, rfl⟩
    · rintro ⟨h0, h1, h2, h3, h4⟩
      cases old; cases new; simp_all [readMembers]
  | cons m ms ih =>
    obtain ⟨k, v⟩ := m
    have hv : JWf v := hw _ List.mem_cons_self
    have ih := ih (fun m hm => hw m (List.mem_cons_of_mem _ hm))
    have hu : readMembers EDTFDate.readField old ((k, v) :: ms) = some new ↔
        ∃ b, EDTFDate.readField old k.2 v = some b ∧ readMembers EDTFDate.readField b ms = some new := by
      show (EDTFDate.readField old k.2 v).bind _ = _ ↔ _
      rw [Option.bind_eq_some_iff]
    rw [hu]
    simp only [ih]
    have c0 := nameIs_iff k.2 (c! "start") (by decide)
    have c1 := nameIs_iff k.2 (c! "end") (by decide)
    have c2 := nameIs_iff k.2 (c! "edtf") (by decide)
    have c3 := nameIs_iff k.2 (c! "level") (by decide)
    have c4 := nameIs_iff k.2 (c! "feature") (by decide)
    by_cases k0 : NameIs k.2 (c! "start")
    · have k1 : ¬ NameIs k.2 (c! "end") := fun h => absurd (nameIs_unique (by decide) (by decide) k0 h) (by decide)
      have k2 : ¬ NameIs k.2 (c! "edtf") := fun h => absurd (nameIs_unique (by decide) (by decide) k0 h) (by decide)
      have k3 : ¬ NameIs k.2 (c! "level") := fun h => absurd (nameIs_unique (by decide) (by decide) k0 h) (by decide)
      have k4 : ¬ NameIs k.2 (c! "feature") := fun h => absurd (nameIs_unique (by decide) (by decide) k0 h) (by decide)
      have e : EDTFDate.readField old k.2 v = (readPtr {} DateRange.ofJson old.start v).map (fun x => { old with start := x }) := by
        unfold EDTFDate.readField
        rw [if_pos (c0.2 k0)]
      rw [e, given_pos k0, given_neg k1, given_neg k2, given_neg k3, given_neg k4, steps_cons]
      simp only [Option.map_eq_some_iff]
      constructor
      · rintro ⟨b, ⟨x, hx, rfl⟩, h0, h1, h2, h3, h4⟩
        exact ⟨⟨x, (readPtr_iff (fun a b _ => dateRangeFrom_iff hv a b) _ _).1 hx, h0⟩, h1, h2, h3, h4⟩
      · rintro ⟨⟨x, hx, h0⟩, h1, h2, h3, h4⟩
        exact ⟨_, ⟨x, (readPtr_iff (fun a b _ => dateRangeFrom_iff hv a b) _ _).2 hx, rfl⟩, h0, h1, h2, h3, h4⟩
    by_cases k1 : NameIs k.2 (c! "end")
    · have k2 : ¬ NameIs k.2 (c! "edtf") := fun h => absurd (nameIs_unique (by decide) (by decide) k1 h) (by decide)
      have k3 : ¬ NameIs k.2 (c! "level") := fun h => absurd (nameIs_unique (by decide) (by decide) k1 h) (by decide)
      have k4 : ¬ NameIs k.2 (c! "feature") := fun h => absurd (nameIs_unique (by decide) (by decide) k1 h) (by decide)
      have e : EDTFDate.readField old k.2 v = (readPtr {} DateRange.ofJson old.stop v).map (fun x => { old with stop := x }) := by
        unfold EDTFDate.readField
        rw [if_neg (fun h => k0 (c0.1 h)), if_pos (c1.2 k1)]
      rw [e, given_neg k0, given_pos k1, given_neg k2, given_neg k3, given_neg k4, steps_cons]
      simp only [Option.map_eq_some_iff]
      constructor
      · rintro ⟨b, ⟨x, hx, rfl⟩, h0, h1, h2, h3, h4⟩
        exact ⟨h0, ⟨x, (readPtr_iff (fun a b _ => dateRangeFrom_iff hv a b) _ _).1 hx, h1⟩, h2, h3, h4⟩
      · rintro ⟨h0, ⟨x, hx, h1⟩, h2, h3, h4⟩
        exact ⟨_, ⟨x, (readPtr_iff (fun a b _ => dateRangeFrom_iff hv a b) _ _).2 hx, rfl⟩, h0, h1, h2, h3, h4⟩
    by_cases k2 : NameIs k.2 (c! "edtf")
    · have k3 : ¬ NameIs k.2 (c! "level") := fun h => absurd (nameIs_unique (by decide) (by decide) k2 h) (by decide)
      have k4 : ¬ NameIs k.2 (c! "feature") := fun h => absurd (nameIs_unique (by decide) (by decide) k2 h) (by decide)
      have e : EDTFDate.readField old k.2 v = (readStr old.edtf v).map (fun x => { old with edtf := x }) := by
        unfold EDTFDate.readField
        rw [if_neg (fun h => k0 (c0.1 h)), if_neg (fun h => k1 (c1.1 h)), if_pos (c2.2 k2)]
      rw [e, given_neg k0, given_neg k1, given_pos k2, given_neg k3, given_neg k4, steps_cons]
      simp only [Option.map_eq_some_iff]
      constructor
      · rintro ⟨b, ⟨x, hx, rfl⟩, h0, h1, h2, h3, h4⟩
        exact ⟨h0, h1, ⟨x, (readStr_iff _ _ _).1 hx, h2⟩, h3, h4⟩
      · rintro ⟨h0, h1, ⟨x, hx, h2⟩, h3, h4⟩
        exact ⟨_, ⟨x, (readStr_iff _ _ _).2 hx, rfl⟩, h0, h1, h2, h3, h4⟩
    by_cases k3 : NameIs k.2 (c! "level")
    · have k4 : ¬ NameIs k.2 (c! "feature") := fun h => absurd (nameIs_unique (by decide) (by decide) k3 h) (by decide)
      have e : EDTFDate.readField old k.2 v = (readInt old.level v).map (fun x => { old with level := x }) := by
        unfold EDTFDate.readField
        rw [if_neg (fun h => k0 (c0.1 h)), if_neg (fun h => k1 (c1.1 h)), if_neg (fun h => k2 (c2.1 h)), if_pos (c3.2 k3)]
      rw [e, given_neg k0, given_neg k1, given_neg k2, given_pos k3, given_neg k4, steps_cons]
      simp only [Option.map_eq_some_iff]
      constructor
      · rintro ⟨b, ⟨x, hx, rfl⟩, h0, h1, h2, h3, h4⟩
        exact ⟨h0, h1, h2, ⟨x, (readInt_iff _ _ _).1 hx, h3⟩, h4⟩
      · rintro ⟨h0, h1, h2, ⟨x, hx, h3⟩, h4⟩
        exact ⟨_, ⟨x, (readInt_iff _ _ _).2 hx, rfl⟩, h0, h1, h2, h3, h4⟩
    by_cases k4 : NameIs k.2 (c! "feature")
    · have e : EDTFDate.readField old k.2 v = (readStr old.feature v).map (fun x => { old with feature := x }) := by
        unfold EDTFDate.readField
        rw [if_neg (fun h => k0 (c0.1 h)), if_neg (fun h => k1 (c1.1 h)), if_neg (fun h => k2 (c2.1 h)), if_neg (fun h => k3 (c3.1 h)), if_pos (c4.2 k4)]
      rw [e, given_neg k0, given_neg k1, given_neg k2, given_neg k3, given_pos k4, steps_cons]
      simp only [Option.map_eq_some_iff]
      constructor
      · rintro ⟨b, ⟨x, hx, rfl⟩, h0, h1, h2, h3, h4⟩
        exact ⟨h0, h1, h2, h3, ⟨x, (readStr_iff _ _ _).1 hx, h4⟩⟩
      · rintro ⟨h0, h1, h2, h3, ⟨x, hx, h4⟩⟩
        exact ⟨_, ⟨x, (readStr_iff _ _ _).2 hx, rfl⟩, h0, h1, h2, h3, h4⟩
    have e : EDTFDate.readField old k.2 v = some old := by
      unfold EDTFDate.readField
      rw [if_neg (fun h => k0 (c0.1 h)), if_neg (fun h => k1 (c1.1 h)), if_neg (fun h => k2 (c2.1 h)), if_neg (fun h => k3 (c3.1 h)), if_neg (fun h => k4 (c4.1 h))]
    rw [e, given_neg k0, given_neg k1, given_neg k2, given_neg k3, given_neg k4]
    constructor
    · rintro ⟨b, h, hs⟩; cases h; exact hs
    · intro h; exact ⟨old, rfl, h⟩

theorem edtfFrom_iff {v : JV} (hv : JWf v) (old new : EDTFDate) : EDTFDate.ofJson old v = some new ↔ EdtfFrom old v new := by
  unfold EdtfFrom
  cases v with
  | null => simp [EDTFDate.ofJson, eq_comm]
  | obj ms =>
    rw [EDTFDate.ofJson, edtfMembers_iff (jwf_obj hv)]
    simp
  | _ => simp [EDTFDate.ofJson]

/-! ### C72 -/

/-- C72: for every text and every date, decoding the text gives the date exactly when the
text is a JSON text of a document, no more than 10000 deep, whose members give the date,
field by field. -/
theorem C72_decodes (s : Str) (d : EDTFDate) : EDTFDate.unmarshal s = some d ↔
    ∃ v, JDocument v s ∧ Nested 10000 v ∧ EdtfFrom ⟨none, none, [], 0, []⟩ v d := by
  unfold EDTFDate.unmarshal
  show (readJson s).bind _ = _ ↔ _
  rw [Option.bind_eq_some_iff]
  constructor
  · rintro ⟨v, h1, h2⟩
    obtain ⟨hd, hn⟩ := (C71_reads s v).1 h1
    have hw : JWf v := by obtain ⟨_, t, _, _, ht, _⟩ := hd; exact ⟨t, ht⟩
    exact ⟨v, hd, hn, (edtfFrom_iff hw _ _).1 h2⟩
  · rintro ⟨v, hd, hn, h⟩
    have hw : JWf v := by obtain ⟨_, t, _, _, ht, _⟩ := hd; exact ⟨t, ht⟩
    exact ⟨v, (C71_reads s v).2 ⟨hd, hn⟩, (edtfFrom_iff hw _ _).2 h⟩

/-- The order of the members and the case of their names do not matter, unknown members are
passed over, and a field given twice keeps the last value. -/
example : EDTFDate.unmarshal (c! "{\"LEVEL\": 2, \"x\": [1], \"edtf\": \"a\", \"edtf\": \"b\", \"edtf\": null, \"ſtart\": {\"lower\": {\"timestamp\": \"5\", \"precision\": 64}}}") =
    some ⟨some ⟨[], some { timestamp := some 5, precision := 64 }, none⟩, none, c! "b", 2, []⟩ := by decide +kernel

/-- A fraction, an exponent and a string are no levels; an escaped digit is no timestamp;
4294967296 is one flag too many. -/
example : EDTFDate.unmarshal (c! "{\"level\": 1.0}") = none ∧ EDTFDate.unmarshal (c! "{\"level\": 1e0}") = none ∧
    EDTFDate.unmarshal (c! "{\"level\": \"1\"}") = none ∧
    EDTFDate.unmarshal (c! "{\"start\": {\"lower\": {\"timestamp\": \"\\u0035\"}}}") = none ∧
    EDTFDate.unmarshal (c! "{\"start\": {\"lower\": {\"precision\": 4294967296}}}") = none := by decide +kernel

end EDTF
