/-
C69: the helpers that read years, months, days and times, for all arguments.
-/
import Verif.SpecYmd
import Verif.PropsMisc
namespace EDTF
open Spec
variable {f : Int → Nat → Nat → Int}

/-! ### Texts of numbers -/

theorem atoi_iff (t : Str) (v : Int) : atoi t = some v ↔ IntText t v := parseInt_iff t v

theorem intText_unique {t : Str} {v w : Int} (h : IntText t v) (h' : IntText t w) : v = w := by
  have := (atoi_iff t v).2 h
  rw [(atoi_iff t w).2 h'] at this
  exact (Option.some.inj this).symm

theorem intText_ne {t : Str} {v : Int} (h : IntText t v) : t ≠ [] := (decimal_no_quote h.1).1

theorem partText_iff (t : Str) (v : Int) : atoiOrZero t = .ok v ↔ PartText t v := by
  unfold atoiOrZero PartText
  by_cases h : t = []
  · subst h
    rw [if_neg (by simp)]
    constructor
    · intro e; injection e with e; exact .inl ⟨rfl, e.symm⟩
    · rintro (⟨-, rfl⟩ | h)
      · rfl
      · exact absurd rfl (intText_ne h)
  · rw [if_pos h, Res.ofOption_eq_ok, atoi_iff]
    exact ⟨.inr, fun k => k.resolve_left (fun k => h k.1)⟩

theorem partText_unique {t : Str} {v w : Int} (h : PartText t v) (h' : PartText t w) : v = w := by
  have := (partText_iff t v).2 h
  rw [(partText_iff t w).2 h'] at this
  injection this with this
  exact this.symm

theorem digChar_eq {n : Nat} (h : n < 10) : digChar n = Nat.digitChar n := by
  exact (by decide : ∀ n, n < 10 → digChar n = Nat.digitChar n) n h

theorem natDigitsAux_eq (k n : Nat) (acc : Str) (h : n < 10 ^ k) (hk : 0 < k) : natDigitsAux k n acc = Nat.toDigitsCore 10 k n acc := by
  induction k generalizing n acc with
  | zero => omega
  | succ k ih =>
    unfold natDigitsAux Nat.toDigitsCore
    by_cases h' : n < 10
    · rw [if_pos h']
      have : n / 10 = 0 := by omega
      simp only [this, if_true]
      rw [digChar_eq h', Nat.mod_eq_of_lt h']
    · rw [if_neg h']
      have : n / 10 ≠ 0 := by omega
      simp only [this, if_false]
      rw [digChar_eq (Nat.mod_lt _ (by omega))]
      have hk' : 0 < k := by
        rcases Nat.eq_zero_or_pos k with rfl | h0
        · omega
        · exact h0
      exact ih _ _ (by rw [Nat.pow_succ] at h; omega) hk'

theorem itoa_digits (n : Nat) : itoa (n : Int) = Nat.toDigits 10 n := by
  unfold itoa natDigits Nat.toDigits
  rw [if_neg (by omega), Int.natAbs_natCast]
  exact natDigitsAux_eq _ _ _ (Nat.lt_of_lt_of_le (Nat.lt_pow_self (by omega) : n < 10 ^ n) (Nat.pow_le_pow_right (by omega) (by omega))) (by omega)

/-! ### Pieces -/

theorem joinWith_cons (c : Char) (p : Str) {ps : List Str} (h : ps ≠ []) : joinWith c (p :: ps) = p ++ c :: joinWith c ps := by
  cases ps with
  | nil => exact absurd rfl h
  | cons q ps => rfl

theorem split_pieces (c : Char) (s : Str) : (∀ p ∈ splitChar c s, c ∉ p) ∧ s = joinWith c (splitChar c s) := by
  induction s with
  | nil => simp [splitChar, joinWith]
  | cons a s ih =>
    unfold splitChar
    by_cases h : a = c
    · rw [if_pos h, joinWith_cons c [] (splitChar_ne_nil c s), ← ih.2, h]
      refine ⟨?_, rfl⟩
      intro p hp
      rcases List.mem_cons.1 hp with rfl | hp
      · simp
      · exact ih.1 p hp
    · rw [if_neg h]
      obtain ⟨q, qs, e⟩ : ∃ q qs, splitChar c s = q :: qs := List.exists_cons_of_ne_nil (splitChar_ne_nil c s)
      rw [e] at ih ⊢
      refine ⟨?_, ?_⟩
      · intro p hp
        rcases List.mem_cons.1 hp with rfl | hp
        · have := ih.1 q List.mem_cons_self
          simp only [List.mem_cons, not_or]
          exact ⟨fun e => h e.symm, this⟩
        · exact ih.1 p (List.mem_cons_of_mem _ hp)
      · show a :: s = joinWith c ((a :: q) :: qs)
        rw [ih.2]
        cases qs with
        | nil => rfl
        | cons r rs => rfl

theorem splitChar_join (c : Char) {ps : List Str} (h0 : ps ≠ []) (h : ∀ p ∈ ps, c ∉ p) : splitChar c (joinWith c ps) = ps := by
  induction ps with
  | nil => exact absurd rfl h0
  | cons p ps ih =>
    cases ps with
    | nil => exact splitChar_none (h p List.mem_cons_self)
    | cons q qs =>
      rw [joinWith_cons c p (by simp), splitChar_append (h p List.mem_cons_self), ih (by simp) (fun r hr => h r (List.mem_cons_of_mem _ hr))]

theorem pieces_iff (s : Str) (ps : List Str) : splitChar '-' s = ps ↔ DashPieces s ps := by
  constructor
  · rintro rfl
    exact ⟨splitChar_ne_nil _ _, (split_pieces '-' s).1, (split_pieces '-' s).2⟩
  · rintro ⟨h0, h, rfl⟩
    exact splitChar_join '-' h0 h

/-! ### Days of a month -/

/-- C69: DaysInMonth for all years and months. -/
theorem C69_days {y m : Int} (h1 : -2 ^ 63 ≤ y) (h2 : y < 2 ^ 63) (r : Res Int) : daysInMonth y m = r ↔ DaysOutcome y m r := by
  have key : ∀ r, DaysOutcome y m r → daysInMonth y m = r := by
    intro r h
    cases h with
    | month k hy hk k1 k2 => rw [hk]; exact C39_days hy k1 k2
    | other hy h => exact C39_other_months hy h
    | error h =>
      rcases h with h | h
      · exact C39_long_years h h1 h2
      · exact C39_negative_months h h1 h2
  refine ⟨?_, key r⟩
  rintro rfl
  suffices ∃ r, DaysOutcome y m r by
    obtain ⟨r, h⟩ := this
    rw [key r h]; exact h
  by_cases hy : y.natAbs ≤ 9999
  · by_cases hm : m < 0
    · exact ⟨_, .error (.inr hm)⟩
    by_cases hm' : m = 0 ∨ 12 < m
    · exact ⟨_, .other hy hm'⟩
    · exact ⟨_, .month m.toNat hy (by omega) (by omega) (by omega)⟩
  · exact ⟨_, .error (.inl (by omega))⟩

theorem days_texts (a b : Str) (r : Res Int) :
    (Res.ofOption (atoi a)).bind (fun y => (Res.ofOption (atoi b)).bind (fun m => daysInMonth y m)) = r ↔ DaysTexts a b r := by
  cases ha : atoi a with
  | none =>
    constructor
    · rintro rfl
      refine .error ?_
      rintro ⟨y, m, hy, -⟩
      rw [(atoi_iff a y).2 hy] at ha; cases ha
    · intro h
      cases h with
      | read y m hy hm r h => rw [(atoi_iff a y).2 hy] at ha; cases ha
      | error h => rfl
  | some y =>
    have hy := (atoi_iff a y).1 ha
    cases hb : atoi b with
    | none =>
      constructor
      · rintro rfl
        refine .error ?_
        rintro ⟨y, m, -, hm⟩
        rw [(atoi_iff b m).2 hm] at hb; cases hb
      · intro h
        cases h with
        | read y m hy hm r h => rw [(atoi_iff b m).2 hm] at hb; cases hb
        | error h => rfl
    | some m =>
      have hm := (atoi_iff b m).1 hb
      show daysInMonth y m = r ↔ _
      rw [C69_days hy.2.1 hy.2.2]
      constructor
      · intro h; exact .read y m hy hm r h
      · intro h
        cases h with
        | read y' m' hy' hm' r h =>
          rw [intText_unique hy hy', intText_unique hm hm']; exact h
        | error h => exact absurd ⟨y, m, hy, hm⟩ h

/-- C69: DaysInMonthWithString for all strings. -/
theorem C69_days_text (s : Str) (r : Res Int) : daysInMonthWithString s = r ↔ DaysText s r := by
  unfold daysInMonthWithString
  have hp := (pieces_iff s (splitChar '-' s)).1 rfl
  have uniq : ∀ {ps}, DashPieces s ps → ps = splitChar '-' s := fun h => ((pieces_iff s _).2 h).symm
  constructor
  · rintro rfl
    match e : splitChar '-' s with
    | [] => exact absurd e (splitChar_ne_nil _ _)
    | [a] => exact .error [a] (e ▸ hp) (by simp) (by simp)
    | [a, b] => exact .two a b (e ▸ hp) _ ((days_texts a b _).1 rfl)
    | [a, b, c] => exact .three a b c (e ▸ hp) _ ((days_texts _ c _).1 rfl)
    | a :: b :: c :: d :: l => exact .error (a :: b :: c :: d :: l) (e ▸ hp) (by simp) (by simp)
  · intro h
    cases h with
    | two a b h r hr => rw [← uniq h]; exact (days_texts a b r).2 hr
    | three a b c h r hr => rw [← uniq h]; exact (days_texts _ c r).2 hr
    | error ps h h2 h3 =>
      rw [← uniq h]
      match ps with
      | [] => rfl
      | [a] => rfl
      | [a, b] => exact absurd rfl h2
      | [a, b, c] => exact absurd rfl h3
      | a :: b :: c :: d :: l => rfl

/-! ### Year, month and day -/

theorem ymdTexts_unique {a b c : Str} {y m d y' m' d' : Int} (h : YmdTexts a b c y m d) (h' : YmdTexts a b c y' m' d') :
    y = y' ∧ m = m' ∧ d = d' :=
  ⟨intText_unique h.1 h'.1, partText_unique h.2.1 h'.2.1, partText_unique h.2.2.1 h'.2.2.1⟩

theorem ymdReads_unique {a b c : Str} {v w : YMD} (h : YmdReads a b c v) (h' : YmdReads a b c w) : v = w := by
  cases h with
  | noMonth y h hy =>
    cases h' with
    | noMonth y' h' hy' => obtain ⟨rfl, -, -⟩ := ymdTexts_unique h h'; rfl
    | noDay y' m' h' hy' h1 h2 => obtain ⟨-, e, -⟩ := ymdTexts_unique h h'; omega
    | day y' m' d' h' hy' h1 h2 hd hl => obtain ⟨-, e, -⟩ := ymdTexts_unique h h'; omega
  | noDay y m h hy k1 k2 =>
    cases h' with
    | noMonth y' h' hy' => obtain ⟨-, e, -⟩ := ymdTexts_unique h h'; omega
    | noDay y' m' h' hy' h1 h2 =>
      obtain ⟨rfl, e, -⟩ := ymdTexts_unique h h'
      obtain rfl : m = m' := by omega
      rfl
    | day y' m' d' h' hy' h1 h2 hd hl => obtain ⟨-, -, e⟩ := ymdTexts_unique h h'; omega
  | day y m d h hy k1 k2 kd kl =>
    cases h' with
    | noMonth y' h' hy' => obtain ⟨-, e, -⟩ := ymdTexts_unique h h'; omega
    | noDay y' m' h' hy' h1 h2 => obtain ⟨-, -, e⟩ := ymdTexts_unique h h'; omega
    | day y' m' d' h' hy' h1 h2 hd hl =>
      obtain ⟨rfl, e, rfl⟩ := ymdTexts_unique h h'
      obtain rfl : m = m' := by omega
      rfl

theorem ymdReads_texts {a b c : Str} {v : YMD} (h : YmdReads a b c v) : ∃ y m d, YmdTexts a b c y m d ∧ y.natAbs ≤ 9999 := by
  cases h with
  | noMonth y h hy => exact ⟨_, _, _, h, hy⟩
  | noDay y m h hy h1 h2 => exact ⟨_, _, _, h, hy⟩
  | day y m d h hy h1 h2 hd hl => exact ⟨_, _, _, h, hy⟩

theorem ymd_reads_large {a b c t : Str} {v : YMD} (h : YmdReads a b c v) (h' : YmdLarge a b c t) : False := by
  obtain ⟨y, m, d, ht, hy⟩ := ymdReads_texts h
  obtain ⟨y', m', d', ht', hy', -⟩ := h'
  obtain ⟨rfl, -, -⟩ := ymdTexts_unique ht ht'
  omega

theorem ymdOutcome_unique {a b c : Str} {r r' : Res YMD} (h : YmdOutcome a b c r) (h' : YmdOutcome a b c r') : r = r' := by
  cases h with
  | read v h =>
    cases h' with
    | read w h' => rw [ymdReads_unique h h']
    | large t h' => exact (ymd_reads_large h h').elim
    | error h1 h2 => exact absurd h (h1 v)
  | large t h =>
    cases h' with
    | read w h' => exact (ymd_reads_large h' h).elim
    | large t' h' =>
      obtain ⟨y, m, d, ht, -, -, rfl⟩ := h
      obtain ⟨y', m', d', ht', -, -, rfl⟩ := h'
      obtain ⟨rfl, -, -⟩ := ymdTexts_unique ht ht'
      rfl
    | error h1 h2 => exact absurd h (h2 t)
  | error h1 h2 =>
    cases h' with
    | read w h' => exact absurd h' (h1 w)
    | large t h' => exact absurd h' (h2 t)
    | error => rfl

/-- The body of YMDFromStrings once the three texts are read. -/
theorem ymd_body {a b c : Str} {y m d : Int} (h : YmdTexts a b c y m d) :
    ymdFromStrings a b c =
      (let z := if y < 0 then flipYear y else y
       if z > MAX_YEARS then .err (Unsupported (c! "year") (itoa z))
       else if m = 0 ∧ d ≠ 0 then .err .plain
       else if m > 12 then .err .plain
       else (daysInMonth z (if m = 0 then 1 else m)).bind (fun n =>
         if d ≠ 0 ∧ d > n then .err .plain
         else .ok ⟨if y < 0 then flipYear z else z, if m = 0 then 1 else m, if d = 0 then n else d⟩)) := by
  obtain ⟨ha, hb, hc, h0⟩ := h
  unfold ymdFromStrings
  rw [if_neg (intText_ne ha), if_neg (fun k => k.2 (h0 k.1))]
  simp only [(atoi_iff a y).2 ha, (partText_iff b m).2 hb, (partText_iff c d).2 hc, Res.ofOption_some, Res.ok_bind, decide_eq_true_eq]
  rfl

theorem flip_eq {y : Int} (h1 : -2 ^ 63 ≤ y) (h2 : y < 2 ^ 63) (h : y ≠ -2 ^ 63) : flipYear y = -y := by
  unfold flipYear
  rw [wrap_flip h1 h2, if_neg h]

theorem ymd_total (a b c : Str) : YmdOutcome a b c (ymdFromStrings a b c) := by
  by_cases hex : ∃ y m d, YmdTexts a b c y m d
  · obtain ⟨y, m, d, h⟩ := hex
    have hr1 := h.1.2.1
    have hr2 := h.1.2.2
    by_cases hmin : y = -2 ^ 63
    · have no1 : ∀ v, ¬ YmdReads a b c v := by
        intro v hv
        obtain ⟨y', m', d', h', hy⟩ := ymdReads_texts hv
        obtain ⟨rfl, -, -⟩ := ymdTexts_unique h h'
        omega
      have no2 : ∀ t, ¬ YmdLarge a b c t := by
        rintro t ⟨y', m', d', h', -, hy, -⟩
        exact hy ((ymdTexts_unique h h').1 ▸ hmin)
      have hf : flipYear y = y := by rw [hmin]; decide
      rw [ymd_body h]
      simp only [hf, ite_self]
      rw [if_neg (by unfold MAX_YEARS; omega)]
      have hd : ∀ k, daysInMonth y k = .err .plain := fun k => (C69_days hr1 hr2 _).2 (.error (.inl (by omega)))
      split
      · exact .error no1 no2
      split
      · exact .error no1 no2
      rw [hd]
      exact .error no1 no2
    have hz : (if y < 0 then flipYear y else y) = (y.natAbs : Int) := by
      split
      · rw [flip_eq hr1 hr2 hmin]; omega
      · omega
    have hz' : (if y < 0 then flipYear (y.natAbs : Int) else (y.natAbs : Int)) = y := by
      split
      · rw [flip_eq (by omega) (by omega) (by omega)]; omega
      · omega
    rw [ymd_body h]
    simp only [hz, hz']
    by_cases hy : 9999 < y.natAbs
    · rw [if_pos (by unfold MAX_YEARS; omega), itoa_digits]
      exact .large _ ⟨y, m, d, h, hy, hmin, rfl⟩
    have hy' : y.natAbs ≤ 9999 := by omega
    rw [if_neg (by unfold MAX_YEARS; omega)]
    have no2 : ∀ t, ¬ YmdLarge a b c t := by
      rintro t ⟨y', m', d', h', hy, -⟩
      obtain ⟨rfl, -, -⟩ := ymdTexts_unique h h'
      omega
    have err : (∀ v, ¬ YmdReads a b c v) → YmdOutcome a b c (.err .plain) := fun k => .error k no2
    have reads : ∀ {v}, YmdReads a b c v →
        (m = 0 ∧ d = 0) ∨ (1 ≤ m ∧ m ≤ 12 ∧ d = 0) ∨ (1 ≤ m ∧ m ≤ 12 ∧ d ≠ 0 ∧ d ≤ monthLen y m.toNat) := by
      intro v hv
      cases hv with
      | noMonth y' h' hy' => obtain ⟨-, e1, e2⟩ := ymdTexts_unique h h'; omega
      | noDay y' m' h' hy' h1 h2 => obtain ⟨-, e1, e2⟩ := ymdTexts_unique h h'; omega
      | day y' m' d' h' hy' h1 h2 hd hl =>
        obtain ⟨rfl, rfl, rfl⟩ := ymdTexts_unique h h'
        rw [Int.toNat_natCast]; omega
    by_cases c1 : m = 0 ∧ d ≠ 0
    · rw [if_pos c1]
      exact err fun v hv => by have := reads hv; omega
    rw [if_neg c1]
    by_cases c2 : m > 12
    · rw [if_pos c2]
      exact err fun v hv => by have := reads hv; omega
    rw [if_neg c2]
    by_cases m0 : m = 0
    · obtain rfl : d = 0 := by omega
      subst m0
      have := daysInMonth_nonneg (y := y.natAbs) (m := 1) (by omega) (by decide) (by decide)
      rw [show ((1 : Nat) : Int) = 1 from rfl, show monthLen (y.natAbs : Int) 1 = 31 from rfl] at this
      simp only [if_true, this]
      exact .read _ (.noMonth y h hy')
    · simp only [if_neg m0]
      by_cases mneg : m < 0
      · rw [C39_negative_months mneg (by omega) (by omega)]
        exact err fun v hv => by have := reads hv; omega
      · obtain ⟨k, rfl⟩ : ∃ k : Nat, m = k := ⟨m.toNat, by omega⟩
        rw [daysInMonth_nonneg (by omega) (by omega) (by omega), monthLen_natAbs]
        show YmdOutcome a b c (if _ then _ else _)
        split
        · exact err fun v hv => by
            have := reads hv
            rw [Int.toNat_natCast] at this
            omega
        · by_cases d0 : d = 0
          · subst d0
            rw [if_pos rfl]
            exact .read _ (.noDay y k h hy' (by omega) (by omega))
          · rw [if_neg d0]
            exact .read _ (.day y k d h hy' (by omega) (by omega) d0 (by omega))
  · have no : ymdFromStrings a b c = .err .plain := by
      unfold ymdFromStrings
      by_cases ha : a = []
      · rw [if_pos ha]
      rw [if_neg ha]
      by_cases hbc : b = [] ∧ c ≠ []
      · rw [if_pos hbc]
      rw [if_neg hbc]
      have ato : ∀ s, (∃ v, atoiOrZero s = .ok v) ∨ atoiOrZero s = .err .plain := by
        intro s
        unfold atoiOrZero
        split
        · cases atoi s with
          | none => exact .inr rfl
          | some v => exact .inl ⟨v, rfl⟩
        · exact .inl ⟨_, rfl⟩
      cases ay : atoi a with
      | none => rfl
      | some y =>
        simp only [Res.ofOption_some, Res.ok_bind]
        rcases ato b with ⟨m, hm⟩ | hm
        · rcases ato c with ⟨d, hd⟩ | hd
          · refine absurd ⟨y, m, d, (atoi_iff a y).1 ay, (partText_iff b m).1 hm, (partText_iff c d).1 hd, fun hb => ?_⟩ hex
            exact Classical.byContradiction fun hc => hbc ⟨hb, hc⟩
          · rw [hm]; simp only [Res.ok_bind]; rw [hd]; rfl
        · rw [hm]; rfl
    rw [no]
    refine .error ?_ ?_
    · intro v hv
      obtain ⟨y, m, d, h, -⟩ := ymdReads_texts hv
      exact hex ⟨y, m, d, h⟩
    · rintro t ⟨y, m, d, h, -⟩
      exact hex ⟨y, m, d, h⟩

/-- C69: YMDFromStrings for all texts. -/
theorem C69_ymd (a b c : Str) (r : Res YMD) : ymdFromStrings a b c = r ↔ YmdOutcome a b c r :=
  ⟨fun h => h ▸ ymd_total a b c, fun h => ymdOutcome_unique (ymd_total a b c) h⟩

/-- C69: YMDFromString for all texts. -/
theorem C69_ymd_text (s : Str) (r : Res YMD) : ymdFromString s = r ↔ YmdText s r := by
  unfold ymdFromString
  have hp := (pieces_iff s (splitChar '-' s)).1 rfl
  have uniq : ∀ {ps}, DashPieces s ps → ps = splitChar '-' s := fun h => ((pieces_iff s _).2 h).symm
  constructor
  · rintro rfl
    match e : splitChar '-' s with
    | [] => exact absurd e (splitChar_ne_nil _ _)
    | [a] => exact .one a (e ▸ hp) _ (ymd_total _ _ _)
    | [a, b] => exact .two a b (e ▸ hp) _ (ymd_total _ _ _)
    | [a, b, c] => exact .three a b c (e ▸ hp) _ (ymd_total _ _ _)
    | [a, b, c, d] => exact .four a b c d (e ▸ hp) _ (ymd_total _ _ _)
    | a :: b :: c :: d :: x :: l => exact .error (a :: b :: c :: d :: x :: l) (e ▸ hp) (by simp)
  · intro h
    cases h with
    | one a h r hr => rw [← uniq h]; exact (C69_ymd _ _ _ r).2 hr
    | two a b h r hr => rw [← uniq h]; exact (C69_ymd _ _ _ r).2 hr
    | three a b c h r hr => rw [← uniq h]; exact (C69_ymd _ _ _ r).2 hr
    | four a b c d h r hr => rw [← uniq h]; exact (C69_ymd _ _ _ r).2 hr
    | error ps h hl =>
      rw [← uniq h]
      match ps with
      | [] => simp at hl
      | [a] => simp at hl
      | [a, b] => simp at hl
      | [a, b, c] => simp at hl
      | [a, b, c, d] => simp at hl
      | a :: b :: c :: d :: x :: l => rfl

/-! ### Instants -/

theorem getnum_inv {s rest : Str} {n : Int} (h : getnum true s = some (n, rest)) : ∃ k : Nat, k < 100 ∧ s = pad2 k ++ rest ∧ n = k := by
  rcases s with _ | ⟨a, _ | ⟨b, s⟩⟩
  · simp [getnum] at h
  · simp [getnum] at h
  · simp only [getnum, if_true] at h
    by_cases ha : isDig a = true
    · by_cases hb : isDig b = true
      · simp only [ha, hb, Bool.not_true, Bool.false_eq_true, if_false, Option.some.injEq, Prod.mk.injEq] at h
        have la := digVal_lt ha
        have lb := digVal_lt hb
        refine ⟨digVal a * 10 + digVal b, by omega, ?_, by omega⟩
        rw [← h.2]
        simp only [pad2]
        rw [show (digVal a * 10 + digVal b) / 10 % 10 = digVal a by omega, show (digVal a * 10 + digVal b) % 10 = digVal b by omega,
          dig_digVal ha, dig_digVal hb]
        rfl
      · simp [ha, hb] at h
    · simp [ha] at h

theorem getnum_inv' {s rest : Str} {n : Int} (h : getnum false s = some (n, rest)) :
    ∃ k : Nat, n = k ∧ ((k < 100 ∧ s = pad2 k ++ rest) ∨ (k < 10 ∧ s = dig k :: rest)) := by
  rcases s with _ | ⟨a, _ | ⟨b, s⟩⟩
  · simp [getnum] at h
  · simp only [getnum, Bool.not_false, Bool.and_true] at h
    by_cases ha : isDig a = true
    · simp only [ha, if_true, Option.some.injEq, Prod.mk.injEq] at h
      exact ⟨digVal a, h.1.symm, .inr ⟨digVal_lt ha, by rw [dig_digVal ha, ← h.2]⟩⟩
    · simp [ha] at h
  · by_cases ha : isDig a = true
    · by_cases hb : isDig b = true
      · have : getnum true (a :: b :: s) = some (n, rest) := by
          rw [← h]; simp [getnum, ha, hb]
        obtain ⟨k, h1, h2, h3⟩ := getnum_inv this
        exact ⟨k, h3, .inl ⟨h1, h2⟩⟩
      · simp only [getnum, ha, hb, Bool.not_true, Bool.false_eq_true, if_false, Bool.not_false, if_true, Option.some.injEq,
          Prod.mk.injEq] at h
        exact ⟨digVal a, h.1.symm, .inr ⟨digVal_lt ha, by rw [dig_digVal ha, ← h.2]⟩⟩
    · simp [getnum, ha] at h

theorem parseToks_cons {t : Tok} {ts : List Tok} {f g : Fields} {s : Str} (h : parseToks (t :: ts) f s = some g) :
    ∃ f' rest, parseTok t f s = some (f', rest) ∧ parseToks ts f' rest = some g := by
  unfold parseToks at h
  cases e : parseTok t f s with
  | none => rw [e] at h; cases h
  | some p => rw [e] at h; exact ⟨p.1, p.2, rfl, h⟩

theorem lit_inv {c : Char} {f f' : Fields} {s rest : Str} (h : parseTok (.lit c) f s = some (f', rest)) : f' = f ∧ s = c :: rest := by
  unfold parseTok at h
  rcases s with _ | ⟨x, s⟩
  · cases h
  · simp only at h
    split at h
    · rename_i e
      injection h with h; injection h with h1 h2
      exact ⟨h1.symm, by rw [e, h2]⟩
    · cases h

theorem year4_inv {f f' : Fields} {s rest : Str} (h : parseTok .year4 f s = some (f', rest)) :
    ∃ n : Nat, n < 10000 ∧ f' = { f with year := (n : Int) } ∧ s = pad4 n ++ rest := by
  unfold parseTok at h
  rcases s with _ | ⟨a, _ | ⟨b, _ | ⟨c, _ | ⟨d, s⟩⟩⟩⟩
  · cases h
  · cases h
  · cases h
  · cases h
  · simp only at h
    split at h
    · rename_i e
      simp only [Bool.and_eq_true] at e
      obtain ⟨⟨⟨ha, hb⟩, hc⟩, hd⟩ := e
      injection h with h; injection h with h1 h2
      have l := digitsVal_lt [a, b, c, d] (by simp [ha, hb, hc, hd])
      rw [show 10 ^ [a, b, c, d].length = 10000 by simp] at l
      refine ⟨digitsVal [a, b, c, d], l, h1.symm, ?_⟩
      have la := digVal_lt ha
      have lb := digVal_lt hb
      have lc := digVal_lt hc
      have ld := digVal_lt hd
      have e : digitsVal [a, b, c, d] = 1000 * digVal a + 100 * digVal b + 10 * digVal c + digVal d := by
        simp only [digitsVal, List.foldl]; omega
      rw [e]
      unfold pad4
      rw [show (1000 * digVal a + 100 * digVal b + 10 * digVal c + digVal d) / 1000 % 10 = digVal a by omega,
        show (1000 * digVal a + 100 * digVal b + 10 * digVal c + digVal d) / 100 % 10 = digVal b by omega,
        show (1000 * digVal a + 100 * digVal b + 10 * digVal c + digVal d) / 10 % 10 = digVal c by omega,
        show (1000 * digVal a + 100 * digVal b + 10 * digVal c + digVal d) % 10 = digVal d by omega,
        dig_digVal ha, dig_digVal hb, dig_digVal hc, dig_digVal hd, h2]
      rfl
    · cases h

theorem mon2_inv {f f' : Fields} {s rest : Str} (h : parseTok .mon2 f s = some (f', rest)) :
    ∃ n : Nat, 1 ≤ n ∧ n ≤ 12 ∧ f' = { f with month := (n : Int) } ∧ s = pad2 n ++ rest := by
  unfold parseTok at h
  simp only at h
  cases e : getnum true s with
  | none => rw [e] at h; cases h
  | some p =>
    rw [e] at h
    simp only at h
    obtain ⟨k, k1, k2, k3⟩ := getnum_inv e
    split at h
    · cases h
    · injection h with h; injection h with h1 h2
      exact ⟨k, by omega, by omega, by rw [← h1, k3], by rw [k2, h2]⟩

theorem day2_inv {f f' : Fields} {s rest : Str} (h : parseTok .day2 f s = some (f', rest)) :
    ∃ n : Nat, n < 100 ∧ f' = { f with day := (n : Int) } ∧ s = pad2 n ++ rest := by
  unfold parseTok at h
  simp only at h
  cases e : getnum true s with
  | none => rw [e] at h; cases h
  | some p =>
    rw [e] at h
    simp only at h
    obtain ⟨k, k1, k2, k3⟩ := getnum_inv e
    injection h with h; injection h with h1 h2
    exact ⟨k, k1, by rw [← h1, k3], by rw [k2, h2]⟩

theorem min2_inv {f f' : Fields} {s rest : Str} (h : parseTok .min2 f s = some (f', rest)) :
    ∃ n : Nat, n < 60 ∧ f' = { f with min := (n : Int) } ∧ s = pad2 n ++ rest := by
  unfold parseTok at h
  simp only at h
  cases e : getnum true s with
  | none => rw [e] at h; cases h
  | some p =>
    rw [e] at h
    simp only at h
    obtain ⟨k, k1, k2, k3⟩ := getnum_inv e
    split at h
    · cases h
    · injection h with h; injection h with h1 h2
      exact ⟨k, by omega, by rw [← h1, k3], by rw [k2, h2]⟩

theorem dropFraction_inv (s : Str) : ∃ z, Fraction z ∧ s = z ++ dropFraction s := by
  unfold dropFraction
  split
  · rename_i c d rest
    split
    · rename_i h
      refine ⟨c :: d :: rest.takeWhile isDig, .inr ⟨c, d, _, h.1, rfl, ?_⟩, ?_⟩
      · rw [List.all_cons, h.2, List.all_takeWhile]; rfl
      · rw [List.cons_append, List.cons_append, List.takeWhile_append_dropWhile]
    · exact ⟨[], .inl rfl, rfl⟩
  · exact ⟨[], .inl rfl, rfl⟩

theorem dropFraction_all {z : Str} (h : Fraction z) : dropFraction z = [] := by
  rcases h with rfl | ⟨c, d, ds, h1, rfl, h2⟩
  · rfl
  · rw [List.all_cons, Bool.and_eq_true] at h2
    rw [dropFraction, if_pos ⟨h1, h2.1⟩]
    obtain ⟨-, h2⟩ := h2
    induction ds with
    | nil => rfl
    | cons x ds ih =>
      rw [List.all_cons, Bool.and_eq_true] at h2
      rw [List.dropWhile_cons, h2.1]
      exact ih h2.2

theorem sec2_inv {f f' : Fields} {s rest : Str} (h : parseTok .sec2 f s = some (f', rest)) :
    ∃ (n : Nat) (z : Str), n < 60 ∧ Fraction z ∧ f' = { f with sec := (n : Int) } ∧ s = pad2 n ++ (z ++ rest) := by
  unfold parseTok at h
  simp only at h
  cases e : getnum true s with
  | none => rw [e] at h; cases h
  | some p =>
    rw [e] at h
    simp only at h
    obtain ⟨k, k1, k2, k3⟩ := getnum_inv e
    split at h
    · cases h
    · injection h with h; injection h with h1 h2
      obtain ⟨z, hz, e⟩ := dropFraction_inv p.2
      exact ⟨k, z, by omega, hz, by rw [← h1, k3], by rw [k2, ← h2, ← e]⟩

theorem hour2_inv {f f' : Fields} {s rest : Str} (h : parseTok .hour2 f s = some (f', rest)) :
    ∃ n : Nat, n < 24 ∧ f' = { f with hour := (n : Int) } ∧ (s = pad2 n ++ rest ∨ (n < 10 ∧ s = dig n :: rest)) := by
  unfold parseTok at h
  simp only at h
  cases e : getnum false s with
  | none => rw [e] at h; cases h
  | some p =>
    rw [e] at h
    simp only at h
    obtain ⟨k, k3, k2⟩ := getnum_inv' e
    split at h
    · cases h
    · injection h with h; injection h with h1 h2
      refine ⟨k, by omega, by rw [← h1, k3], ?_⟩
      rw [← h2]
      rcases k2 with ⟨-, k2⟩ | ⟨k1, k2⟩
      · exact .inl k2
      · exact .inr ⟨k1, k2⟩

/-- What time.Parse accepts for the layout of TimeWithYMD. -/
theorem parseToks_inv {s : Str} {g : Fields} (h : parseToks layoutDateTime {} s = some g) :
    ∃ (y m d hh mi ss : Nat) (t : Str), y < 10000 ∧ 1 ≤ m ∧ m ≤ 12 ∧ d < 100 ∧ hh < 24 ∧ mi < 60 ∧ ss < 60 ∧
      s = pad4 y ++ '-' :: (pad2 m ++ '-' :: (pad2 d ++ 'T' :: t)) ∧
      g = { year := y, month := m, day := d, hour := hh, min := mi, sec := ss } ∧
      TimeText t (3600 * hh + 60 * mi + ss) := by
  unfold layoutDateTime layoutDate at h
  simp only [List.cons_append, List.nil_append] at h
  obtain ⟨f1, s1, a1, g1⟩ := parseToks_cons h
  obtain ⟨f2, s2, a2, g2⟩ := parseToks_cons g1
  obtain ⟨f3, s3, a3, g3⟩ := parseToks_cons g2
  obtain ⟨f4, s4, a4, g4⟩ := parseToks_cons g3
  obtain ⟨f5, s5, a5, g5⟩ := parseToks_cons g4
  obtain ⟨f6, s6, a6, g6⟩ := parseToks_cons g5
  obtain ⟨f7, s7, a7, g7⟩ := parseToks_cons g6
  obtain ⟨f8, s8, a8, g8⟩ := parseToks_cons g7
  obtain ⟨f9, s9, a9, g9⟩ := parseToks_cons g8
  obtain ⟨f10, s10, a10, g10⟩ := parseToks_cons g9
  obtain ⟨f11, s11, a11, g11⟩ := parseToks_cons g10
  obtain ⟨y, hy, rfl, rfl⟩ := year4_inv a1
  obtain ⟨rfl, rfl⟩ := lit_inv a2
  obtain ⟨m, m1, m2, rfl, rfl⟩ := mon2_inv a3
  obtain ⟨rfl, rfl⟩ := lit_inv a4
  obtain ⟨d, hd, rfl, rfl⟩ := day2_inv a5
  obtain ⟨rfl, rfl⟩ := lit_inv a6
  obtain ⟨hh, hhh, rfl, hs⟩ := hour2_inv a7
  obtain ⟨rfl, rfl⟩ := lit_inv a8
  obtain ⟨mi, hmi, rfl, rfl⟩ := min2_inv a9
  obtain ⟨rfl, rfl⟩ := lit_inv a10
  obtain ⟨ss, fr, hss, hfr, rfl, rfl⟩ := sec2_inv a11
  rw [parseToks] at g11
  by_cases e : s11.isEmpty = true
  · rw [if_pos e] at g11
    obtain rfl := List.isEmpty_iff.1 e
    refine ⟨y, m, d, hh, mi, ss, s6, hy, m1, m2, hd, hhh, hmi, hss, rfl, (Option.some.inj g11).symm, ?_⟩
    rw [List.append_nil] at hs
    rcases hs with rfl | ⟨h1, rfl⟩
    · exact .two hh mi ss fr hhh hmi hss hfr
    · exact .one hh mi ss fr h1 hmi hss hfr
  · rw [if_neg e] at g11; cases g11

theorem cut_unique {c : Char} {p q r t : Str} (hp : c ∉ p) (hq : c ∉ q) (h : p ++ c :: r = q ++ c :: t) : p = q ∧ r = t := by
  induction p generalizing q with
  | nil =>
    rcases q with _ | ⟨x, q⟩
    · exact ⟨rfl, (List.cons.inj h).2⟩
    · exact absurd (by rw [(List.cons.inj h).1]; simp) hq
  | cons a p ih =>
    rcases q with _ | ⟨x, q⟩
    · exact absurd (by rw [← (List.cons.inj h).1]; simp) hp
    · obtain ⟨e1, e2⟩ := List.cons.inj h
      obtain ⟨e3, e4⟩ := ih (fun k => hp (List.mem_cons_of_mem _ k)) (fun k => hq (List.mem_cons_of_mem _ k)) e2
      exact ⟨by rw [e1, e3], e4⟩

theorem digitsVal_zeros (k : Nat) (s : Str) : digitsVal (List.replicate k '0' ++ s) = digitsVal s := by
  have z : digitsVal (List.replicate k '0') = 0 := by
    induction k with
    | zero => rfl
    | succ k ih => rw [List.replicate_succ', digitsVal_append, ih]; rfl
  rw [digitsVal_append, z]; omega

theorem padInt_digits (w : Nat) (n : Nat) : (padInt w n).all isDig = true ∧ digitsVal (padInt w n) = n := by
  unfold padInt zeroPad
  rw [if_neg (by omega), Int.natAbs_natCast]
  refine ⟨?_, ?_⟩
  · rw [List.all_append, natDigits_all, Bool.and_true]
    exact List.all_eq_true.2 fun c hc => by rw [(List.mem_replicate.1 hc).2]; rfl
  · rw [digitsVal_zeros, digitsVal_natDigits]

theorem not_mem_digits {s : Str} {c : Char} (h : s.all isDig = true) (hc : isDig c = false) : c ∉ s := by
  intro k
  have := List.all_eq_true.1 h c k
  rw [hc] at this; cases this

theorem padInt_neg (w : Nat) {z : Int} (h : z < 0) : ∃ t, padInt w z = '-' :: t := by
  unfold padInt; rw [if_pos h]; exact ⟨_, rfl⟩

/-- A number written by `%0wd` before a sign is the digits found there. -/
theorem padInt_cut {w : Nat} {z : Int} {c : Char} {p r t : Str} (hc : isDig c = false) (hp : p.all isDig = true) (hp0 : p ≠ [])
    (h : padInt w z ++ c :: r = p ++ c :: t) : z = (digitsVal p : Int) ∧ r = t := by
  by_cases hz : z < 0
  · obtain ⟨x, e⟩ := padInt_neg w hz
    obtain ⟨a, q, rfl⟩ := List.exists_cons_of_ne_nil hp0
    rw [e] at h
    have := (List.cons.inj h).1
    have ha := List.all_eq_true.1 hp a List.mem_cons_self
    rw [← this] at ha; cases ha
  · obtain ⟨n, rfl⟩ : ∃ n : Nat, z = n := ⟨z.toNat, by omega⟩
    obtain ⟨h1, h2⟩ := padInt_digits w n
    obtain ⟨e1, e2⟩ := cut_unique (not_mem_digits h1 hc) (not_mem_digits hp hc) h
    exact ⟨by rw [← e1, h2], e2⟩

theorem timeText_parse {y m d : Nat} {t : Str} {n : Int} (hy : y < 10000) (V : Valid y m d) (h : TimeText t n) :
    timeParse layoutDateTime (pad4 y ++ c! "-" ++ pad2 m ++ c! "-" ++ pad2 d ++ c! "T" ++ t) = some (unixDay y m d * 86400 + n) := by
  have hd : d < 100 := by have := monthLen_le y m; have := V.2.2.2; omega
  have h1 := V.1
  have h2 := V.2.1
  have fin : ∀ hh mi ss : Nat, parseToks layoutDateTime {} (pad4 y ++ c! "-" ++ pad2 m ++ c! "-" ++ pad2 d ++ c! "T" ++ t)
        = some { year := y, month := m, day := d, hour := hh, min := mi, sec := ss } →
      timeParse layoutDateTime (pad4 y ++ c! "-" ++ pad2 m ++ c! "-" ++ pad2 d ++ c! "T" ++ t) =
        some (unixDay y m d * 86400 + (3600 * hh + 60 * mi + ss : Int)) := by
    intro hh mi ss key
    unfold timeParse
    rw [key]
    simp only [daysIn_eq (y : Int) m h1 h2]
    have v := V.2.2
    rw [if_neg (by omega), goDate_eq]
    unfold secOf; congr 1; omega
  cases h with
  | two hh mi ss z k1 k2 k3 k4 =>
    refine fin hh mi ss ?_
    have hs := parseTok_sec2 { year := y, month := m, day := d, hour := hh, min := mi } k3 z
    rw [dropFraction_all k4] at hs
    simp only [layoutDateTime, layoutDate, List.append_assoc, parseToks, parseTok_year4 _ hy, List.cons_append, List.nil_append,
      parseTok_lit, parseTok_mon2 _ h1 h2, parseTok_day2 _ hd, parseTok_hour2 _ k1, parseTok_min2 _ k2, hs, List.isEmpty_nil, if_true]
  | one hh mi ss z k1 k2 k3 k4 =>
    refine fin hh mi ss ?_
    have hh2 : ∀ (g : Fields) (r : Str), parseTok .hour2 g (dig hh :: ':' :: r) = some ({ g with hour := (hh : Int) }, ':' :: r) := by
      intro g r
      have : isDig (dig hh) = true := isDig_dig_lt hh k1
      simp only [parseTok, getnum, this, show isDig ':' = false from rfl, Bool.not_true, Bool.false_eq_true, if_false, Bool.not_false, if_true,
        digVal_dig_lt hh k1]
      rw [if_neg (by omega)]
    have hs := parseTok_sec2 { year := y, month := m, day := d, hour := hh, min := mi } k3 z
    rw [dropFraction_all k4] at hs
    simp only [layoutDateTime, layoutDate, List.append_assoc, parseToks, parseTok_year4 _ hy, List.cons_append, List.nil_append,
      parseTok_lit, parseTok_mon2 _ h1 h2, parseTok_day2 _ hd, hh2, parseTok_min2 _ k2, hs, List.isEmpty_nil, if_true]

theorem timeText_range {t : Str} {n : Int} (h : TimeText t n) : 0 ≤ n ∧ n < 86400 := by
  cases h <;> omega

/-- C69: TimeWithYMD for all dates and all times of day, in whole seconds. -/
theorem C69_instant (hf : DayCount f) {v : YMD} (h1 : -2 ^ 63 ≤ v.year) (h2 : v.year < 2 ^ 63) (t : Str) (r : Res Int) : timeWithYMD v t = r ↔ InstantOutcome f v t r := by
  have ok : ∀ {y : Int} {m d : Nat} {n : Int}, v = ⟨y, m, d⟩ → y.natAbs ≤ 9999 → Valid y m d → TimeText t n →
      timeWithYMD v t = .ok (86400 * f y m d + n) := by
    intro y m d n hv hy V T
    rw [hf.unique dayCount_unixDay y m d V]
    subst hv
    have V' := valid_natAbs.2 V
    obtain ⟨a, b⟩ := timeText_range T
    have hd : d < 100 := by have := monthLen_le y m; have := V.2.2.2; omega
    have hm : m < 100 := by have := V.2.1; omega
    have key := timeText_parse (y := y.natAbs) (by omega) V' T
    unfold timeWithYMD
    by_cases hn : y < 0
    · have e : flipYear y = (y.natAbs : Int) := by rw [flip_eq (by omega) (by omega) (by omega)]; omega
      simp only [hn, decide_true, if_true]
      rw [e, padInt4 (by omega), padInt2 hm, padInt2 hd, key]
      simp only
      rw [timeToBCE_eq V' a b, show -(y.natAbs : Int) = y by omega]
      congr 1; omega
    · simp only [hn, decide_false, Bool.false_eq_true, if_false]
      have e : (y.natAbs : Int) = y := by omega
      rw [e] at key
      have p4 : padInt 4 y = pad4 y.natAbs := by rw [← padInt4 (by omega), e]
      rw [p4, padInt2 hm, padInt2 hd, key]
      simp only
      congr 1; omega
  have tot : InstantOutcome f v t (timeWithYMD v t) := by
    by_cases hex : ∃ (y : Int) (m d : Nat), v = ⟨y, m, d⟩ ∧ y.natAbs ≤ 9999 ∧ Valid y m d ∧ ∃ n, TimeText t n
    · obtain ⟨y, m, d, hv, hy, V, n, T⟩ := hex
      rw [ok hv hy V T]
      exact .read y m d hv hy V n T
    · have : timeWithYMD v t = .err .plain := by
        obtain ⟨y, m, d⟩ := v
        simp only at h1 h2
        unfold timeWithYMD
        simp only [decide_eq_true_eq]
        generalize hz : (if y < 0 then flipYear y else y) = z
        unfold timeParse
        cases e : parseToks layoutDateTime {} (padInt 4 z ++ c! "-" ++ padInt 2 m ++ c! "-" ++ padInt 2 d ++ c! "T" ++ t) with
        | none => rfl
        | some g =>
          obtain ⟨y', m', d', hh, mi, ss, t', hy', m1, m2, hd', k1, k2, k3, es, eg, T⟩ := parseToks_inv e
          rw [show padInt 4 z ++ c! "-" ++ padInt 2 m ++ c! "-" ++ padInt 2 d ++ c! "T" ++ t =
            padInt 4 z ++ '-' :: (padInt 2 m ++ '-' :: (padInt 2 d ++ 'T' :: t)) by simp] at es
          obtain ⟨ez, es⟩ := padInt_cut rfl (pad4_all _) (by simp [pad4]) es
          obtain ⟨em, es⟩ := padInt_cut rfl (pad2_all _) (by simp [pad2]) es
          obtain ⟨ed, es⟩ := padInt_cut rfl (pad2_all _) (by simp [pad2]) es
          rw [digitsVal_pad4 _ hy'] at ez
          rw [digitsVal_pad2 _ (by omega)] at em
          rw [digitsVal_pad2 _ hd'] at ed
          have hy : y.natAbs = y' := by
            rw [← hz] at ez
            by_cases hn : y < 0
            · rw [if_pos hn] at ez
              unfold flipYear at ez
              rw [wrap_flip h1 h2] at ez
              split at ez <;> omega
            · rw [if_neg hn] at ez; omega
          subst eg
          simp only [daysIn_eq (y' : Int) m' m1 m2]
          rw [if_pos]
          apply Classical.byContradiction
          intro hv
          refine hex ⟨y, m', d', by rw [em, ed], by omega, ?_, _, es ▸ T⟩
          rw [← valid_natAbs, hy]
          refine ⟨m1, m2, ?_, ?_⟩ <;> omega
      rw [this]
      exact .error hex
  constructor
  · rintro rfl; exact tot
  · intro h
    cases h with
    | read y m d hv hy V n T => exact ok hv hy V T
    | error h =>
      generalize hr : timeWithYMD v t = r at tot
      cases tot with
      | read y m d hv hy V n T => exact absurd ⟨y, m, d, hv, hy, V, n, T⟩ h
      | error => rfl

theorem ymdReads_year {a b c : Str} {v : YMD} (h : YmdReads a b c v) : v.year.natAbs ≤ 9999 := by
  cases h <;> assumption

/-- C69: TimeWithYMDString for all texts and times of day. -/
theorem C69_instant_text (hf : DayCount f) (a b c t : Str) (r : Res Int) :
    timeWithYMDString a b c t = r ↔ InstantTexts f a b c t r := by
  show (ymdFromStrings a b c).bind (fun v => timeWithYMD v t) = r ↔ _
  constructor
  · rintro rfl
    generalize he : ymdFromStrings a b c = e
    cases (C69_ymd a b c e).1 he with
    | read v h =>
      have := ymdReads_year h
      exact .read v h _ ((C69_instant hf (by omega) (by omega) t _).1 rfl)
    | large z h => exact .large z h
    | error h1 h2 => exact .error h1 h2
  · intro h
    cases h with
    | read v h r hr =>
      have := ymdReads_year h
      rw [(C69_ymd a b c _).2 (.read v h)]
      exact (C69_instant hf (by omega) (by omega) t _).2 hr
    | large z h => rw [(C69_ymd a b c _).2 (.large z h)]
    | error h1 h2 => rw [(C69_ymd a b c _).2 (.error h1 h2)]

/-- C69: YMDFromStringDate for all records. -/
theorem C69_ymd_record (d : StringDate) (r : Res YMD) : ymdFromStringDate d = r ↔ YmdOutcome d.year d.month d.day r := C69_ymd _ _ _ r

/-- C69: Equals is equality of the three texts. -/
theorem C69_equals (d e : StringDate) : d.equals e = true ↔ d = e := by
  obtain ⟨y, m, k⟩ := d
  obtain ⟨y', m', k'⟩ := e
  unfold StringDate.equals
  by_cases h1 : y = y'
  · by_cases h2 : m = m'
    · by_cases h3 : k = k'
      · simp [h1, h2, h3]
      · simp [h3]
    · simp [h2]
  · simp [h1]

/-! ### Instances -/

theorem intText_of {t : Str} {v : Int} (h : atoi t = some v) : IntText t v := (atoi_iff t v).1 h

-- February of a leap year before the common era; month 13 counts as 31 days, month -1 is an error
example : DaysOutcome (-4) 2 (.ok 29) := .month 2 (by decide) rfl (by decide) (by decide)
example : daysInMonth (-4) 2 = .ok 29 := (C69_days (by decide) (by decide) _).2 (.month 2 (by decide) rfl (by decide) (by decide))
example : daysInMonth 2004 13 = .ok 31 := (C69_days (by decide) (by decide) _).2 (.other (by decide) (by decide))
example : daysInMonth 2004 (-1) = .err .plain := (C69_days (by decide) (by decide) _).2 (.error (by decide))
-- whatever stands before the first of two hyphens is dropped
example : daysInMonthWithString (c! "foo-2004-02") = .ok 29 :=
  (C69_days_text _ _).2 (.three (c! "foo") (c! "2004") (c! "02") ⟨by decide, by decide, by decide⟩ _
    (.read (-2004) 2 (intText_of rfl) (intText_of rfl) _ (.month 2 (by decide) rfl (by decide) (by decide))))
example : daysInMonthWithString (c! "2004") = .err .plain :=
  (C69_days_text _ _).2 (.error [c! "2004"] ⟨by decide, by decide, by decide⟩ (by decide) (by decide))
-- a signed and a negative day
example : ymdFromStrings (c! "+2004") (c! "2") (c! "-3") = .ok ⟨2004, 2, -3⟩ :=
  (C69_ymd _ _ _ _).2 (.read _ (.day 2004 2 (-3) ⟨intText_of rfl, .inr (intText_of rfl), .inr (intText_of rfl), by decide⟩
    (by decide) (by decide) (by decide) (by decide) (by decide)))
-- a year of five digits; the sign is lost in the error
example : ymdFromStrings (c! "-12345") (c! "99") [] = .err (.unsupported (c! "year") (c! "12345")) :=
  (C69_ymd _ _ _ _).2 (.large _ ⟨-12345, 99, 0, ⟨intText_of rfl, .inr (intText_of rfl), .inl ⟨rfl, rfl⟩, fun _ => rfl⟩,
    by decide, by decide, by decide⟩)
example : ymdFromString (c! "foo-2004-05-06") = .ok ⟨-2004, 5, 6⟩ :=
  (C69_ymd_text _ _).2 (.four (c! "foo") (c! "2004") (c! "05") (c! "06") ⟨by decide, by decide, by decide⟩ _
    (.read _ (.day (-2004) 5 6 ⟨intText_of rfl, .inr (intText_of rfl), .inr (intText_of rfl), by decide⟩
      (by decide) (by decide) (by decide) (by decide) (by decide))))
example : ymdFromString (c! "1-2-3-4-5") = .err .plain :=
  (C69_ymd_text _ _).2 (.error [c! "1", c! "2", c! "3", c! "4", c! "5"] ⟨by decide, by decide, by decide⟩ (by decide))
-- an hour of one digit
example : timeWithYMD ⟨1970, 1, 2⟩ (c! "7:08:09") = .ok (86400 * unixDay 1970 1 2 + (3600 * 7 + 60 * 8 + 9)) :=
  (C69_instant dayCount_unixDay (by decide) (by decide) _ _).2
    (.read 1970 1 2 rfl (by decide) (by unfold Valid; decide) _ (.one 7 8 9 [] (by decide) (by decide) (by decide) (.inl rfl)))
-- a fraction of a second is dropped
example : timeWithYMD ⟨1970, 1, 2⟩ (c! "07:08:09,999") = .ok (86400 * unixDay 1970 1 2 + (3600 * 7 + 60 * 8 + 9)) :=
  (C69_instant dayCount_unixDay (by decide) (by decide) _ _).2
    (.read 1970 1 2 rfl (by decide) (by unfold Valid; decide) _ (.two 7 8 9 (c! ",999") (by decide) (by decide) (by decide)
      (.inr ⟨',', '9', c! "99", .inr rfl, rfl, rfl⟩)))
example : timeWithYMDString (c! "1970") [] [] (c! "23:59:59") = .ok (86400 * unixDay 1970 1 31 + 86399) :=
  (C69_instant_text dayCount_unixDay _ _ _ _ _).2
    (.read _ (.noMonth 1970 ⟨intText_of rfl, .inl ⟨rfl, rfl⟩, .inl ⟨rfl, rfl⟩, fun _ => rfl⟩ (by decide)) _
      (.read 1970 1 31 rfl (by decide) (by unfold Valid; decide) _ (.two 23 59 59 [] (by decide) (by decide) (by decide) (.inl rfl))))
example : ymdFromStringDate ⟨c! "1985", c! "02", []⟩ = .ok ⟨1985, 2, 28⟩ :=
  (C69_ymd_record _ _).2 (.read _ (.noDay 1985 2 ⟨intText_of rfl, .inr (intText_of rfl), .inl ⟨rfl, rfl⟩, fun _ => rfl⟩ (by decide) (by decide) (by decide)))
example : (StringDate.mk (c! "1985") (c! "2") []).equals ⟨c! "1985", c! "02", []⟩ = false :=
  Bool.eq_false_iff.2 fun h => absurd ((C69_equals _ _).1 h) (by decide)

end EDTF
