/- C102, continued: the command-line tools on arguments of bytes. -/
import Verif.PropsBytes
namespace EDTF
open Spec

/-! ### Flags -/

theorem flagNameBytes_split (s : Bytes) : ∃ v, s = flagNameBytes s ++ v ∧ 0x3D ∉ flagNameBytes s ∧ (v = [] ∨ v.head? = some 0x3D) := by
  induction s with
  | nil => exact ⟨[], rfl, by simp [flagNameBytes], .inl rfl⟩
  | cons c s ih =>
    unfold flagNameBytes
    by_cases h : c = 0x3D
    · rw [if_pos h]; exact ⟨c :: s, rfl, by simp, .inr (by rw [h]; rfl)⟩
    · rw [if_neg h]
      obtain ⟨v, e, hn, hv⟩ := ih
      refine ⟨v, by rw [List.cons_append, ← e], ?_, hv⟩
      intro hm
      rcases List.mem_cons.1 hm with hm | hm
      · exact h hm.symm
      · exact hn hm

theorem flagNameBytes_of {n v : Bytes} (h : 0x3D ∉ n) (hv : v = [] ∨ v.head? = some 0x3D) : flagNameBytes (n ++ v) = n := by
  induction n with
  | nil =>
    rcases hv with rfl | hv
    · rfl
    · cases v with
      | nil => rfl
      | cons c v =>
        have : c = 0x3D := by simpa using hv
        show (if c = 0x3D then [] else _) = _
        rw [if_pos this]
  | cons c n ih =>
    have h1 : c ≠ 0x3D := fun e => h (by rw [e]; exact List.mem_cons_self)
    show (if c = 0x3D then [] else c :: flagNameBytes (n ++ v)) = _
    rw [if_neg h1, ih (fun hm => h (List.mem_cons_of_mem _ hm))]

/-- What a first argument is: the operands, or a flag. -/
theorem flag_cases (usage : Bytes) (as : List Bytes) : (∃ bs, ByteOperands as bs ∧ flagParseBytes usage as = (.args bs, [])) ∨
    ∃ a rest n t, as = a :: rest ∧ ByteFlag a n t ∧ flagParseBytes usage as = (.exit n, t ++ usage) := by
  have named : ∀ (hy : Bytes) (c : UInt8) (r : Bytes), (hy = [0x2D] ∨ hy = [0x2D, 0x2D]) → c ≠ 0x3D → c ≠ 0x2D → ∃ n t, ByteFlag (hy ++ c :: r) n t ∧
      (if flagNameBytes (c :: r) = encode (c! "help") ∨ flagNameBytes (c :: r) = encode (c! "h") then (ByteFlags.exit 0, usage)
      else (.exit 2, encode (c! "flag provided but not defined: -") ++ flagNameBytes (c :: r) ++ [0x0A] ++ usage)) = (.exit n, t ++ usage) := by
    intro hy c r hh h1 h2
    obtain ⟨v, e, hn, hv⟩ := flagNameBytes_split (c :: r)
    have h0 : flagNameBytes (c :: r) = c :: flagNameBytes r := by
      show (if c = 0x3D then [] else _) = _; rw [if_neg h1]
    by_cases hx : flagNameBytes (c :: r) = encode (c! "help") ∨ flagNameBytes (c :: r) = encode (c! "h")
    · refine ⟨0, [], ?_, by rw [if_pos hx]; rfl⟩
      rw [e, ← List.append_assoc]
      exact .help hh hx.symm hv
    · refine ⟨2, ascii (c! "flag provided but not defined: -") ++ flagNameBytes (c :: r) ++ ascii (c! "\n"), ?_,
        by rw [if_neg hx, encode_ascii (s := c! "flag provided but not defined: -") (by decide)]; rfl⟩
      have e2 : hy ++ c :: r = hy ++ flagNameBytes (c :: r) ++ v := by rw [List.append_assoc, ← e]
      rw [e2]
      refine .unknown hh (by rw [h0]; simp) ?_ hn ⟨fun k => hx (.inr k), fun k => hx (.inl k)⟩ hv
      rw [h0]
      intro k
      exact h2 (by simpa using k)
  cases as with
  | nil => exact .inl ⟨[], .none, rfl⟩
  | cons s as =>
    simp only [flagParseBytes]
    split
    · exact .inl ⟨as, .dashes, rfl⟩
    · rename_i c r
      by_cases h1 : c = 0x2D
      · right
        rw [if_pos (.inl h1), encode_ascii (s := c! "bad flag syntax: ") (by decide)]
        subst h1
        exact ⟨_, _, _, _, rfl, .hyphens, rfl⟩
      by_cases h2 : c = 0x3D
      · right
        rw [if_pos (.inr h2), encode_ascii (s := c! "bad flag syntax: ") (by decide)]
        subst h2
        exact ⟨_, _, _, _, rfl, .equals2, rfl⟩
      · right
        rw [if_neg (fun h => h.elim h1 h2)]
        obtain ⟨n, t, k, e⟩ := named [0x2D, 0x2D] c r (.inr rfl) h2 h1
        exact ⟨_, _, n, t, rfl, k, e⟩
    · rename_i c r hc hc'
      right
      by_cases h2 : c = 0x3D
      · rw [if_pos h2, encode_ascii (s := c! "bad flag syntax: ") (by decide)]
        subst h2
        exact ⟨_, _, _, _, rfl, .equals, rfl⟩
      · rw [if_neg h2]
        have h1 : c ≠ 0x2D := by
          rintro rfl
          cases r with
          | nil => exact hc rfl rfl
          | cons x r => exact hc' x r rfl rfl
        obtain ⟨n, t, k, e⟩ := named [0x2D] c r (.inl rfl) h2 h1
        exact ⟨_, _, n, t, rfl, k, e⟩
    · rename_i h1 h2 h3
      left
      refine ⟨s :: as, .all ?_, rfl⟩
      match s, h3 with
      | [], _ => exact .inl (by simp)
      | [x], _ =>
        by_cases hx : x = 0x2D
        · exact .inr (by rw [hx])
        · exact .inl (by simpa using hx)
      | x :: y :: r, h3 =>
        refine .inl ?_
        intro hx
        have : x = 0x2D := by simpa using hx
        exact h3 y r (by rw [this])


theorem flag_one {usage : Bytes} {c : UInt8} {r : Bytes} {rest : List Bytes} (h1 : c ≠ 0x2D) (h2 : c ≠ 0x3D) :
    flagParseBytes usage ((0x2D :: c :: r) :: rest) =
      if flagNameBytes (c :: r) = encode (c! "help") ∨ flagNameBytes (c :: r) = encode (c! "h") then (ByteFlags.exit 0, usage)
      else (.exit 2, encode (c! "flag provided but not defined: -") ++ flagNameBytes (c :: r) ++ [0x0A] ++ usage) := by
  simp only [flagParseBytes]
  split
  · rename_i h; injection h with _ h; injection h with h; exact absurd h h1
  · rename_i h; injection h with _ h; injection h with h; exact absurd h h1
  · rename_i h; injection h with _ h; injection h with h h'; subst h; subst h'
    rw [if_neg h2]
  · rename_i h; exact absurd rfl (h _ _)

theorem flag_two {usage : Bytes} {c : UInt8} {r : Bytes} {rest : List Bytes} (h1 : c ≠ 0x2D) (h2 : c ≠ 0x3D) :
    flagParseBytes usage ((0x2D :: 0x2D :: c :: r) :: rest) =
      if flagNameBytes (c :: r) = encode (c! "help") ∨ flagNameBytes (c :: r) = encode (c! "h") then (ByteFlags.exit 0, usage)
      else (.exit 2, encode (c! "flag provided but not defined: -") ++ flagNameBytes (c :: r) ++ [0x0A] ++ usage) := by
  show (if c = 0x2D ∨ c = 0x3D then _ else _) = _
  rw [if_neg (fun h => h.elim h1 h2)]

theorem operands_eval {usage : Bytes} {as bs : List Bytes} (h : ByteOperands as bs) : flagParseBytes usage as = (.args bs, []) := by
  cases h with
  | none => rfl
  | dashes => rfl
  | @all a as h =>
    rcases h with h | rfl
    · simp only [flagParseBytes]
      split
      · exact absurd rfl h
      · exact absurd rfl h
      · exact absurd rfl h
      · rfl
    · rfl

theorem flag_eval {usage a t : Bytes} {n : Nat} (rest : List Bytes) (h : ByteFlag a n t) : flagParseBytes usage (a :: rest) = (.exit n, t ++ usage) := by
  cases h with
  | equals => rfl
  | equals2 => rfl
  | hyphens => rfl
  | @help hy n v hh hn hv =>
    have he : flagNameBytes (n ++ v) = n := flagNameBytes_of (by rcases hn with rfl | rfl <;> decide) hv
    have hx : n = encode (c! "help") ∨ n = encode (c! "h") := hn.symm
    have : ∃ c r, n ++ v = c :: r ∧ c ≠ 0x2D ∧ c ≠ 0x3D := by
      rcases hn with rfl | rfl
      · exact ⟨_, _, rfl, by decide, by decide⟩
      · exact ⟨_, _, rfl, by decide, by decide⟩
    obtain ⟨c, r, e, h1, h2⟩ := this
    rw [e] at he
    rcases hh with rfl | rfl
    · rw [List.append_assoc, e]
      show flagParseBytes usage ((0x2D :: c :: r) :: rest) = _
      rw [flag_one h1 h2, he, if_pos hx]; rfl
    · rw [List.append_assoc, e]
      show flagParseBytes usage ((0x2D :: 0x2D :: c :: r) :: rest) = _
      rw [flag_two h1 h2, he, if_pos hx]; rfl
  | @unknown hy n v hh h0 h1 h2 hn hv =>
    have he : flagNameBytes (n ++ v) = n := flagNameBytes_of h2 hv
    have hx : ¬ (n = encode (c! "help") ∨ n = encode (c! "h")) := fun k => k.elim hn.2 hn.1
    have : ∃ c r, n ++ v = c :: r ∧ c ≠ 0x2D ∧ c ≠ 0x3D := by
      cases n with
      | nil => exact absurd rfl h0
      | cons c n => exact ⟨c, _, rfl, fun e => h1 (by rw [e]; rfl), fun e => h2 (by rw [e]; exact List.mem_cons_self)⟩
    obtain ⟨c, r, e, k1, k2⟩ := this
    rw [e] at he
    have ha : encode (c! "flag provided but not defined: -") = ascii (c! "flag provided but not defined: -") := encode_ascii (by decide)
    rcases hh with rfl | rfl
    · rw [List.append_assoc, e]
      show flagParseBytes usage ((0x2D :: c :: r) :: rest) = _
      rw [flag_one k1 k2, he, if_neg hx, ha]; rfl
    · rw [List.append_assoc, e]
      show flagParseBytes usage ((0x2D :: 0x2D :: c :: r) :: rest) = _
      rw [flag_two k1 k2, he, if_neg hx, ha]; rfl

/-- **C102**: which arguments a tool works on, and what becomes of flags, for all arguments of bytes. -/
theorem C102_flags (usage : Bytes) (as : List Bytes) :
    (∀ bs t, flagParseBytes usage as = (.args bs, t) ↔ ByteOperands as bs ∧ t = []) ∧
    (∀ n t, flagParseBytes usage as = (.exit n, t) ↔ ∃ a rest w, as = a :: rest ∧ ByteFlag a n w ∧ t = w ++ usage) := by
  constructor
  · intro bs t
    constructor
    · intro h
      rcases flag_cases usage as with ⟨cs, k, e⟩ | ⟨a, rest, n, w, -, -, e⟩
      · rw [e] at h
        injection h with h h'; injection h with h
        subst h
        exact ⟨k, h'.symm⟩
      · rw [e] at h; injection h with h; cases h
    · rintro ⟨h, rfl⟩; exact operands_eval h
  · intro n t
    constructor
    · intro h
      rcases flag_cases usage as with ⟨cs, k, e⟩ | ⟨a, rest, n', w, ha, k, e⟩
      · rw [e] at h; injection h with h; cases h
      · rw [e] at h
        injection h with h h'; injection h with h
        subst h
        exact ⟨a, rest, w, ha, k, h'.symm⟩
    · rintro ⟨a, rest, w, rfl, h, rfl⟩; exact flag_eval rest h

example : flagParseBytes [] [[0x2D, 0xFF]] = (.exit 2, ascii (c! "flag provided but not defined: -") ++ [0xFF] ++ ascii (c! "\n")) ∧
    flagParseBytes [] [[0x2D, 0x68, 0x3D, 0xFF]] = (.exit 0, []) ∧ ByteOperands [[0xFF], [0x2D]] [[0xFF], [0x2D]] :=
  ⟨by decide +kernel, by decide +kernel, .all (.inl (by decide))⟩

/-! ### Arguments that are texts -/

theorem rune_low {c : Char} {n : Nat} (hn : n < 0x80) (h : UInt8.ofNat n ∈ encodeRune c) : c.toNat = n := by
  have hm : (UInt8.ofNat n).toNat ∈ utf8 c := by
    rw [← encodeRune_utf8]; exact List.mem_map_of_mem h
  rw [UInt8.toNat_ofNat', Nat.mod_eq_of_lt (by omega)] at hm
  have hv := char_valid c
  unfold utf8 at hm
  simp only at hm
  repeat' split at hm
  all_goals simp only [List.mem_cons, List.not_mem_nil, or_false] at hm; omega

theorem flagName_skip {p q : Bytes} (h : 0x3D ∉ p) : flagNameBytes (p ++ q) = p ++ flagNameBytes q := by
  induction p with
  | nil => rfl
  | cons c p ih =>
    show (if c = 0x3D then [] else c :: flagNameBytes (p ++ q)) = _
    rw [if_neg (fun e => h (by rw [e]; exact List.mem_cons_self)), ih (fun hm => h (List.mem_cons_of_mem _ hm))]
    rfl

theorem encode_cons (c : Char) (s : Str) : encode (c :: s) = encodeRune c ++ encode s := rfl

theorem flagName_utf8 (s : Str) : flagNameBytes (encode s) = encode (flagName s) := by
  induction s with
  | nil => rfl
  | cons c s ih =>
    by_cases h : c = '='
    · subst h; rfl
    · unfold flagName
      rw [if_neg h, encode_cons, encode_cons, flagName_skip, ih]
      intro hm
      have : c.toNat = 0x3D := rune_low (n := 0x3D) (by decide) hm
      exact h (Char.toNat_inj.1 this)

/-- The operands in bytes. -/
def Flags.bytes : Flags → ByteFlags
  | .args as => .args (as.map encode)
  | .exit n => .exit n

theorem rune_head {c d : Char} {s r : Bytes} (hd : d.toNat < 0x80) (h : encodeRune c ++ s = .ofNat d.toNat :: r) : c = d ∧ s = r := by
  have hne : encodeRune c ≠ [] := by
    intro e
    have := encodeRune_utf8 c
    rw [e] at this
    exact utf8_ne c this.symm
  have hm : UInt8.ofNat d.toNat ∈ encodeRune c := by
    cases he : encodeRune c with
    | nil => exact absurd he hne
    | cons x xs => rw [he] at h; injection h with h; rw [h]; exact List.mem_cons_self
  have hc := Char.toNat_inj.1 (rune_low hd hm)
  subst hc
  refine ⟨rfl, ?_⟩
  have : encodeRune c = [.ofNat c.toNat] := by unfold encodeRune; rw [if_pos hd]
  rw [this] at h
  injection h

theorem encode_nil_iff {s : Str} : encode s = [] ↔ s = [] := by
  constructor
  · intro h; exact encode_inj (h.trans encode_nil.symm)
  · rintro rfl; rfl

theorem flags_utf8 (usage : Str) (as : List Str) :
    flagParseBytes (encode usage) (as.map encode) = ((flagParseM usage as).1.bytes, encode (flagParseM usage as).2) := by
  have bad : ∀ s : Str, encode (c! "bad flag syntax: ") ++ encode s ++ [0x0A] ++ encode usage = encode (c! "bad flag syntax: " ++ s ++ c! "\n" ++ usage) := by
    intro s; simp only [encode_append]; rfl
  have undef : ∀ s : Str, encode (c! "flag provided but not defined: -") ++ encode s ++ [0x0A] ++ encode usage =
      encode (c! "flag provided but not defined: -" ++ s ++ c! "\n" ++ usage) := by
    intro s; simp only [encode_append]; rfl
  have named : ∀ s : Str, (if flagNameBytes (encode s) = encode (c! "help") ∨ flagNameBytes (encode s) = encode (c! "h") then (ByteFlags.exit 0, encode usage)
      else (.exit 2, encode (c! "flag provided but not defined: -") ++ flagNameBytes (encode s) ++ [0x0A] ++ encode usage)) =
      ((if flagName s = c! "help" ∨ flagName s = c! "h" then (Flags.exit 0, usage)
        else (.exit 2, c! "flag provided but not defined: -" ++ flagName s ++ c! "\n" ++ usage)).1.bytes,
       encode (if flagName s = c! "help" ∨ flagName s = c! "h" then (Flags.exit 0, usage)
        else (.exit 2, c! "flag provided but not defined: -" ++ flagName s ++ c! "\n" ++ usage)).2) := by
    intro s
    rw [flagName_utf8]
    simp only [encode_eq]
    split
    · rfl
    · rw [undef]; rfl
  cases as with
  | nil => rfl
  | cons s as =>
    by_cases h : ∃ r, s = '-' :: r
    · obtain ⟨r, rfl⟩ := h
      cases r with
      | nil => rfl
      | cons c r =>
        by_cases hc : c = '-'
        · subst hc
          cases r with
          | nil => rfl
          | cons d r =>
            by_cases hd : d = '-'
            · subst hd
              show (ByteFlags.exit 2, encode (c! "bad flag syntax: ") ++ encode ('-' :: '-' :: '-' :: r) ++ [0x0A] ++ encode usage) = _
              rw [bad]; rfl
            by_cases hd' : d = '='
            · subst hd'
              show (ByteFlags.exit 2, encode (c! "bad flag syntax: ") ++ encode ('-' :: '-' :: '=' :: r) ++ [0x0A] ++ encode usage) = _
              rw [bad]; rfl
            obtain ⟨x, xs, hx⟩ : ∃ x xs, encode (d :: r) = x :: xs := by
              cases he : encode (d :: r) with
              | nil => exact absurd (encode_nil_iff.1 he) (by simp)
              | cons x xs => exact ⟨x, xs, rfl⟩
            have h1 : x ≠ 0x2D := fun e => hd (rune_head (d := '-') (by decide) (by rw [e] at hx; exact hx)).1
            have h2 : x ≠ 0x3D := fun e => hd' (rune_head (d := '=') (by decide) (by rw [e] at hx; exact hx)).1
            have e : (('-' :: '-' :: d :: r) :: as).map encode = (0x2D :: 0x2D :: x :: xs) :: as.map encode := by
              rw [← hx]; rfl
            rw [e, flag_two h1 h2, ← hx, named]
            have em : flagParseM usage (('-' :: '-' :: d :: r) :: as) = if flagName (d :: r) = c! "help" ∨ flagName (d :: r) = c! "h" then (Flags.exit 0, usage)
                else (.exit 2, c! "flag provided but not defined: -" ++ flagName (d :: r) ++ c! "\n" ++ usage) := by
              show (if d = '-' ∨ d = '=' then _ else _) = _
              rw [if_neg (fun h => h.elim hd hd')]
            rw [em]
        by_cases hc' : c = '='
        · subst hc'
          show (ByteFlags.exit 2, encode (c! "bad flag syntax: ") ++ encode ('-' :: '=' :: r) ++ [0x0A] ++ encode usage) = _
          rw [bad]; rfl
        obtain ⟨x, xs, hx⟩ : ∃ x xs, encode (c :: r) = x :: xs := by
          cases he : encode (c :: r) with
          | nil => exact absurd (encode_nil_iff.1 he) (by simp)
          | cons x xs => exact ⟨x, xs, rfl⟩
        have h1 : x ≠ 0x2D := fun e => hc (rune_head (d := '-') (by decide) (by rw [e] at hx; exact hx)).1
        have h2 : x ≠ 0x3D := fun e => hc' (rune_head (d := '=') (by decide) (by rw [e] at hx; exact hx)).1
        have e : (('-' :: c :: r) :: as).map encode = (0x2D :: x :: xs) :: as.map encode := by
          rw [← hx]; rfl
        rw [e, flag_one h1 h2, ← hx, named]
        have em : flagParseM usage (('-' :: c :: r) :: as) = if flagName (c :: r) = c! "help" ∨ flagName (c :: r) = c! "h" then (Flags.exit 0, usage)
            else (.exit 2, c! "flag provided but not defined: -" ++ flagName (c :: r) ++ c! "\n" ++ usage) := by
          simp only [flagParseM]
          split
          · rename_i h; injection h with _ h; injection h with h; exact absurd h hc
          · rename_i h; injection h with _ h; injection h with h; exact absurd h hc
          · rename_i h; injection h with _ h; injection h with h h'; subst h; subst h'
            rw [if_neg hc']
          · rename_i h; exact absurd rfl (h _ _)
        rw [em]
    · have e1 : flagParseBytes (encode usage) ((s :: as).map encode) = (.args ((s :: as).map encode), []) := by
        refine operands_eval (.all (.inl ?_))
        intro k
        cases s with
        | nil => cases k
        | cons c s =>
          cases he : encode (c :: s) with
          | nil => rw [he] at k; cases k
          | cons x xs =>
            rw [he] at k
            have hx : x = 0x2D := by simpa using k
            rw [hx] at he
            exact h ⟨s, by rw [(rune_head (d := '-') (by decide) he).1]⟩
      have e2 : flagParseM usage (s :: as) = (.args (s :: as), []) := by
        simp only [flagParseM]
        split
        · exact absurd ⟨_, rfl⟩ h
        · exact absurd ⟨_, rfl⟩ h
        · exact absurd ⟨_, rfl⟩ h
        · rfl
      rw [e1, e2]; rfl

theorem log_utf8 (m : Str) : logBytes (encode m) = encode (logLine m) := by
  unfold logBytes logLine
  rcases List.eq_nil_or_concat m with rfl | ⟨m, c, rfl⟩
  · rfl
  · rw [List.concat_eq_append]
    have e : encode (m ++ [c]) = encode m ++ encodeRune c := by rw [encode_append]; simp [encode]
    by_cases h : c = '\n'
    · subst h
      rw [e, if_pos (by simp [show encodeRune '\n' = [0x0A] from rfl]), if_pos (by simp), e]
    · rw [if_neg (c := (m ++ [c]).getLast? = _) (by simp [h]), if_neg, encode_append (m ++ [c])]
      · rfl
      · rw [e]
        intro k
        have hm : (0x0A : UInt8) ∈ encodeRune c := by
          rw [List.getLast?_append] at k
          cases hl : (encodeRune c).getLast? with
          | none =>
            rw [List.getLast?_eq_none_iff] at hl
            have := encodeRune_utf8 c
            rw [hl] at this
            exact absurd this.symm (utf8_ne c)
          | some x =>
            rw [hl] at k
            have : x = 0x0A := by simpa using k
            rw [← this]
            exact List.mem_of_getLast? hl
        exact h (Char.toNat_inj.1 (rune_low (n := 0x0A) (by decide) hm))


theorem parseLoop_utf8 (as : List Str) : ∀ (out : Str) (first : Bool), parseLoopBytes (encode out) first (as.map encode) = (parseLoopM out first as).bytes := by
  induction as with
  | nil => intro out first; show ByteRun.mk _ _ _ = ByteRun.mk (encode (out ++ c! "]")) _ _; rw [encode_append]; rfl
  | cons a as ih =>
    intro out first
    show parseLoopBytes _ _ (encode a :: as.map encode) = _
    unfold parseLoopBytes parseLoopM
    rw [parse_utf8]
    cases parseStringM a with
    | panic => rfl
    | fault f =>
      show ByteRun.mk _ _ _ = ByteRun.mk _ _ _
      rw [← encode_append, ← encode_append, ← encode_append, log_utf8]
    | ok d =>
      show parseLoopBytes _ _ _ = Outcome.bytes (parseLoopM _ _ _)
      rw [← ih]
      cases first <;> simp only [encode_append, if_true, Bool.false_eq_true, if_false] <;> rfl

theorem matchesLoop_utf8 (as : List Str) : ∀ (out : Str), matchesLoopBytes (encode out) (as.map encode) = (matchesLoopM out as).bytes := by
  induction as with
  | nil => intro out; rfl
  | cons a as ih =>
    intro out
    show matchesLoopBytes _ (encode a :: as.map encode) = _
    unfold matchesLoopBytes matchesLoopM
    rw [match_utf8]
    cases matchesStr a with
    | panic => rfl
    | err e =>
      show ByteRun.mk _ _ _ = ByteRun.mk _ _ _
      rw [← encode_append, ← encode_append, ← encode_append, log_utf8]
    | ok p =>
      obtain ⟨l, f⟩ := p
      show matchesLoopBytes _ _ = Outcome.bytes (matchesLoopM _ _)
      rw [← ih]
      simp only [encode_append, List.append_assoc]

theorem wasiLoop_utf8 (as : List Str) : ∀ (out : Str), wasiLoopBytes (encode out) (as.map encode) = Outcome.bytes ⟨wasiLoop out as, []⟩ := by
  induction as with
  | nil => intro out; rfl
  | cons a as ih =>
    intro out
    show wasiLoopBytes _ (encode a :: as.map encode) = _
    unfold wasiLoopBytes wasiLoop wasiParse
    rw [parse_utf8]
    cases parseStringM a with
    | panic => rfl
    | fault f =>
      show wasiLoopBytes _ _ = Outcome.bytes ⟨wasiLoop _ _, []⟩
      rw [← ih]
      simp only [encode_append]; rfl
    | ok d =>
      show wasiLoopBytes _ _ = Outcome.bytes ⟨wasiLoop _ _, []⟩
      rw [← ih]
      simp only [encode_append]; rfl

theorem usage_utf8 (what name : Str) : usageBytes what (encode name) = encode (what ++ c! "\n" ++ c! "Usage:\n\t " ++ name ++ c! " edtf_string(N) edtf_string(N)\n") := by
  unfold usageBytes
  rw [← encode_append, ← encode_append]
  simp only [List.append_assoc]
  rfl

theorem plain_utf8 (name : Str) : encode (c! "Usage of ") ++ encode name ++ encode (c! ":\n") = encode (plainUsage name) := by
  unfold plainUsage; simp only [encode_append]

/-- **C102**: a tool whose arguments are texts writes, byte for byte, what it writes of the
characters, and ends with the same status. -/
theorem C102_tools (name : Str) (as : List Str) :
    cmdParseBytes (encode name) (as.map encode) = (cmdParseM name as).bytes ∧
    cmdMatchesBytes (encode name) (as.map encode) = (cmdMatchesM name as).bytes ∧
    cmdWasiBytes (encode name) (as.map encode) = (cmdWasiM name as).bytes := by
  refine ⟨?_, ?_, ?_⟩
  · unfold cmdParseBytes cmdParseM
    rw [usage_utf8]
    rw [show c! "Parse one or more EDTF strings and return a list of JSON-encode edtf.EDTFDate objects." ++ c! "\n" ++ c! "Usage:\n\t " ++ name ++
      c! " edtf_string(N) edtf_string(N)\n" = parseUsage name from rfl, flags_utf8]
    cases flagParseM (parseUsage name) as with
    | mk f t => cases f with
      | exit n => rfl
      | args bs => exact parseLoop_utf8 bs (c! "[") true
  · unfold cmdMatchesBytes cmdMatchesM
    rw [usage_utf8]
    rw [show c! "Parse one or more EDTF strings and emit the EDTF level and feature name they match." ++ c! "\n" ++ c! "Usage:\n\t " ++ name ++
      c! " edtf_string(N) edtf_string(N)\n" = matchesUsage name from rfl, flags_utf8]
    cases flagParseM (matchesUsage name) as with
    | mk f t => cases f with
      | exit n => rfl
      | args bs => exact matchesLoop_utf8 bs []
  · unfold cmdWasiBytes cmdWasiM
    rw [plain_utf8, flags_utf8]
    cases flagParseM (plainUsage name) as with
    | mk f t => cases f with
      | exit n => rfl
      | args bs => exact wasiLoop_utf8 bs []

example : cmdMatchesBytes (encode (c! "matches")) ([c! "1985", c! "é"].map encode) =
    ⟨encode (c! "1985 level 0 (Date)\n"), 1,
      encode (c! "Failed to parse EDTF string 'é', Unrecognized EDTF string 'é' (Invalid or unsupported EDTF string)\n")⟩ := by
  decide +kernel

/-! ### Arguments that are not -/

theorem log_line {m : Bytes} (h : m.getLast? ≠ some 0x0A) : logBytes m = m ++ [0x0A] := by
  unfold logBytes; rw [if_neg h]

theorem broken_log {b t : Bytes} (h : BrokenText b t) :
    logBytes (encode (c! "Failed to parse EDTF string '") ++ b ++ encode (c! "', ") ++ t) = failedToParseEdtf b t := by
  rw [log_line, encode_ascii (s := c! "Failed to parse EDTF string '") (by decide), encode_ascii (s := c! "', ") (by decide)]
  · rfl
  · rw [List.getLast?_append]
    cases h with
    | invalid =>
      rw [List.getLast?_append, show (ascii (c! "' (Invalid or unsupported Level 2 string)")).getLast? = some 0x29 by decide]
      simp
    | unrecognized =>
      rw [List.getLast?_append, show (ascii (c! "' (Invalid or unsupported EDTF string)")).getLast? = some 0x29 by decide]
      simp

theorem parseLoop_pre {pre : List Str} {ds : List EDTFDate} (h : pre.map parseString = ds.map .ok) : ∀ (out : Bytes) (first : Bool) (bs : List Bytes),
    ∃ first', parseLoopBytes out first (pre.map encode ++ bs) =
      parseLoopBytes (out ++ encode ((if first then [] else if ds = [] then [] else c! ",") ++ commas (ds.map EDTFDate.marshal))) first' bs := by
  induction pre generalizing ds with
  | nil =>
    intro out first bs
    cases ds with
    | cons => cases h
    | nil => exact ⟨first, by cases first <;> simp [commas, encode_nil]⟩
  | cons a pre ih =>
    intro out first bs
    cases ds with
    | nil => cases h
    | cons d ds =>
      simp only [List.map_cons, List.cons.injEq] at h
      obtain ⟨f', e⟩ := ih h.2 (out ++ (if first then [] else encode (c! ",")) ++ encode d.marshal) false bs
      refine ⟨f', ?_⟩
      show parseLoopBytes out first (encode a :: (pre.map encode ++ bs)) = _
      rw [parseLoopBytes, parse_utf8, told_ok h.1]
      show parseLoopBytes _ _ _ = _
      rw [e]
      have hc : ∀ x, encode (',' :: x) = 0x2C :: encode x := fun _ => rfl
      congr 1
      cases ds with
      | nil => cases first <;> simp [commas, encode_nil, hc]
      | cons d' ds => cases first <;> simp [commas, encode_append, List.append_assoc, hc, encode_nil]


/-- A loop that has not come to its end does not look at what comes after. -/
theorem parseLoop_stop {pre : List Str} (h : ¬ ∀ s ∈ pre, Accepted s) (bs : List Bytes) : ∀ (out : Bytes) (first : Bool),
    parseLoopBytes out first (pre.map encode ++ bs) = parseLoopBytes out first (pre.map encode) := by
  induction pre with
  | nil => exact absurd (fun _ h => by cases h) h
  | cons a pre ih =>
    intro out first
    show parseLoopBytes out first (encode a :: (pre.map encode ++ bs)) = parseLoopBytes out first (encode a :: pre.map encode)
    unfold parseLoopBytes
    rw [parse_utf8]
    cases hp : parseStringM a with
    | panic => rfl
    | fault => rfl
    | ok d =>
      apply ih
      intro k
      apply h
      intro s hs
      rcases List.mem_cons.1 hs with rfl | hs
      · exact (C54_language s).1 ⟨d, by rw [← C79_forget, hp]; rfl⟩
      · exact k s hs

theorem matchesLoop_stop {pre : List Str} (h : ¬ ∀ s ∈ pre, ∃ p, matchesStr s = .ok p) (bs : List Bytes) : ∀ (out : Bytes),
    matchesLoopBytes out (pre.map encode ++ bs) = matchesLoopBytes out (pre.map encode) := by
  induction pre with
  | nil => exact absurd (fun _ h => by cases h) h
  | cons a pre ih =>
    intro out
    show matchesLoopBytes out (encode a :: (pre.map encode ++ bs)) = matchesLoopBytes out (encode a :: pre.map encode)
    unfold matchesLoopBytes
    rw [match_utf8]
    cases hp : matchesStr a with
    | panic => rfl
    | err => rfl
    | ok p =>
      apply ih
      intro k
      apply h
      intro s hs
      rcases List.mem_cons.1 hs with rfl | hs
      · exact ⟨p, hp⟩
      · exact k s hs

theorem matchesLoop_pre {pre : List Str} {ls : List (Int × Str)} (h : pre.map matchesStr = ls.map .ok) : ∀ (out : Bytes) (bs : List Bytes),
    matchesLoopBytes out (pre.map encode ++ bs) =
      matchesLoopBytes (out ++ encode ((pre.zip ls).flatMap fun p => p.1 ++ c! " level " ++ itoa p.2.1 ++ c! " (" ++ p.2.2 ++ c! ")\n")) bs := by
  induction pre generalizing ls with
  | nil => intro out bs; simp [encode_nil]
  | cons a pre ih =>
    intro out bs
    cases ls with
    | nil => cases h
    | cons l ls =>
      simp only [List.map_cons, List.cons.injEq] at h
      show matchesLoopBytes out (encode a :: (pre.map encode ++ bs)) = _
      rw [matchesLoopBytes, match_utf8, h.1]
      show matchesLoopBytes _ _ = _
      rw [ih h.2]
      simp only [List.zip_cons_cons, List.flatMap_cons, encode_append, List.append_assoc]

/-- **C102**: the parsing tool on arguments of which one is the first that is not a text.  If those
before it are accepted, they are written and the tool ends with status 1 and a line that has the
bytes of the argument; otherwise it has ended before. -/
theorem C102_parse_tool {name bad t : Bytes} {as post : List Bytes} {pre : List Str} (h : ByteOperands as (pre.map encode ++ bad :: post))
    (hb : BrokenText bad t) :
    (∀ ds : List EDTFDate, pre.map parseString = ds.map .ok →
      cmdParseBytes name as = ⟨encode ('[' :: commas (ds.map dateJson)), 1, failedToParseEdtf bad t⟩) ∧
    ((¬ ∀ s ∈ pre, Accepted s) → cmdParseBytes name as = cmdParseBytes name ([0x2D, 0x2D] :: pre.map encode)) := by
  unfold cmdParseBytes
  rw [operands_eval h, operands_eval (.dashes (as := pre.map encode))]
  constructor
  · intro ds hd
    obtain ⟨f', e⟩ := parseLoop_pre hd (encode (c! "[")) true (bad :: post)
    show parseLoopBytes _ _ _ = _
    rw [e, parseLoopBytes, (broken_said hb).1]
    show ByteRun.mk _ _ _ = _
    rw [broken_log hb, ← encode_append, show EDTFDate.marshal = dateJson from funext C73_text]
    rfl
  · intro k
    exact parseLoop_stop k _ _ _

example : cmdParseBytes [] [[0xFF], encode (c! "1985")] = ⟨[0x5B], 1, failedToParseEdtf [0xFF] (ascii (c! "Unrecognized EDTF string '") ++ [0xFF] ++
    ascii (c! "' (Invalid or unsupported EDTF string)"))⟩ := by decide +kernel

/-- **C102**: the matching tool on such arguments. -/
theorem C102_match_tool {name bad t : Bytes} {as post : List Bytes} {pre : List Str} (h : ByteOperands as (pre.map encode ++ bad :: post))
    (hb : BrokenText bad t) :
    (∀ ls : List (Int × Str), pre.map matchesStr = ls.map .ok →
      cmdMatchesBytes name as = ⟨encode ((pre.zip ls).flatMap fun p => p.1 ++ c! " level " ++ jsonInt p.2.1 ++ c! " (" ++ p.2.2 ++ c! ")\n"), 1,
        failedToParseEdtf bad t⟩) ∧
    ((¬ ∀ s ∈ pre, ∃ p, matchesStr s = .ok p) → cmdMatchesBytes name as = cmdMatchesBytes name ([0x2D, 0x2D] :: pre.map encode)) := by
  unfold cmdMatchesBytes
  rw [operands_eval h, operands_eval (.dashes (as := pre.map encode))]
  constructor
  · intro ls hd
    show matchesLoopBytes _ _ = _
    rw [matchesLoop_pre hd, matchesLoopBytes, (broken_said hb).2]
    show ByteRun.mk _ _ _ = _
    rw [broken_log hb]
    simp only [itoa_json]
    rfl
  · intro k
    exact matchesLoop_stop k _ _

example : cmdMatchesBytes [] [encode (c! "1985"), [0xFF], encode (c! "1985")] = ⟨encode (c! "1985 level 0 (Date)\n"), 1,
    failedToParseEdtf [0xFF] (ascii (c! "Unrecognized EDTF string '") ++ [0xFF] ++ ascii (c! "' (Invalid or unsupported EDTF string)"))⟩ := by decide +kernel

theorem wasiLoop_out (as : List Bytes) : ∀ (out : Bytes), wasiLoopBytes out as =
    ⟨out ++ (wasiLoopBytes [] as).stdout, (wasiLoopBytes [] as).status, []⟩ := by
  induction as with
  | nil => intro out; simp [wasiLoopBytes]
  | cons a as ih =>
    intro out
    unfold wasiLoopBytes
    cases parseBytesM a with
    | ok d => simp only; rw [ih (out ++ encode d.marshal ++ [0x0A]), ih ([] ++ encode d.marshal ++ [0x0A])]; simp [List.append_assoc]
    | fault t => simp only; rw [ih (out ++ t ++ [0x0A]), ih ([] ++ t ++ [0x0A])]; simp [List.append_assoc]
    | panic => simp

theorem wasiLoop_append (as bs : List Bytes) : ∀ (out : Bytes), (wasiLoopBytes out as).status = 0 →
    wasiLoopBytes out (as ++ bs) = wasiLoopBytes (wasiLoopBytes out as).stdout bs := by
  induction as with
  | nil => intro out _; rfl
  | cons a as ih =>
    intro out
    show (wasiLoopBytes out (a :: as)).status = 0 → wasiLoopBytes out (a :: (as ++ bs)) = _
    rw [wasiLoopBytes, wasiLoopBytes]
    cases parseBytesM a with
    | ok d => exact ih _
    | fault t => exact ih _
    | panic => intro h; cases h

/-- **C102**: the tool for WASI writes a line for an argument that is not a text, with its bytes,
and goes on. -/
theorem C102_wasi_tool {name bad t : Bytes} {as pre post : List Bytes} (h : ByteOperands as (pre ++ bad :: post)) (hb : BrokenText bad t)
    (hs : (cmdWasiBytes name ([0x2D, 0x2D] :: pre)).status = 0) :
    cmdWasiBytes name as = ⟨(cmdWasiBytes name ([0x2D, 0x2D] :: pre)).stdout ++ t ++ ascii (c! "\n") ++ (cmdWasiBytes name ([0x2D, 0x2D] :: post)).stdout,
      (cmdWasiBytes name ([0x2D, 0x2D] :: post)).status, []⟩ := by
  unfold cmdWasiBytes at hs ⊢
  rw [operands_eval (.dashes (as := pre))] at hs ⊢
  rw [operands_eval h, operands_eval (.dashes (as := post))]
  show wasiLoopBytes [] (pre ++ bad :: post) = _
  rw [wasiLoop_append _ _ _ hs, wasiLoopBytes, (broken_said hb).1]
  show wasiLoopBytes _ _ = _
  rw [wasiLoop_out]
  rfl

example : cmdWasiBytes [] [encode (c! "é"), [0xFF], encode (c! "è")] = ⟨encode (c! "Unrecognized EDTF string 'é' (Invalid or unsupported EDTF string)\n") ++
    ascii (c! "Unrecognized EDTF string '") ++ [0xFF] ++ ascii (c! "' (Invalid or unsupported EDTF string)\n") ++
    encode (c! "Unrecognized EDTF string 'è' (Invalid or unsupported EDTF string)\n"), 0, []⟩ := by decide +kernel

end EDTF
