/-
The texts of the errors of dates with times.
-/
import Verif.LemmasMessage1
namespace EDTF
open Spec Told

theorem parseToksM_cons (t : Tok) (ts : List Tok) (f g : Fields) (s r : Str) (h : parseTok t f s = some (g, r)) :
    parseToksM (t :: ts) f s = parseToksM ts g r := by
  conv => lhs; unfold parseToksM
  rw [h]

theorem parseToksM_stop (t : Tok) (ts : List Tok) (f : Fields) (s : Str) (h : parseTok t f s = none) :
    parseToksM (t :: ts) f s = .inr (tokFault t s) := by
  conv => lhs; unfold parseToksM
  rw [h]

theorem toksM_date {y m d : Nat} (hy : y < 10000) (h1 : 1 ≤ m) (h2 : m ≤ 12) (hd : d < 100) (ts : List Tok) (rest : Str) :
    ∃ F : Fields, F.year = y ∧ F.month = m ∧ F.day = d ∧ F.offset = 0 ∧
    parseToksM (.year4 :: .lit '-' :: .mon2 :: .lit '-' :: .day2 :: ts) {} (pad4 y ++ '-' :: (pad2 m ++ '-' :: (pad2 d ++ rest))) = parseToksM ts F rest := by
  refine ⟨{ ({} : Fields) with year := (y : Int), month := (m : Int), day := (d : Int) }, rfl, rfl, rfl, rfl, ?_⟩
  rw [parseToksM_cons _ _ _ _ _ _ (parseTok_year4 _ hy _), parseToksM_cons _ _ _ _ _ _ (parseTok_lit _ _ _),
    parseToksM_cons _ _ _ _ _ _ (parseTok_mon2 _ h1 h2 _), parseToksM_cons _ _ _ _ _ _ (parseTok_lit _ _ _),
    parseToksM_cons _ _ _ _ _ _ (parseTok_day2 _ hd _)]

/-- Reading the zone. -/
theorem toksM_zone {z : Zone} (h : z.shape) (F : Fields) (hF : F.offset = 0) :
    (z.ok ∧ ∃ G : Fields, G.year = F.year ∧ G.month = F.month ∧ G.day = F.day ∧ parseToksM (EDTF.Zone.toks z) F z.text = .inl G) ∨
    (∃ n a b, z = .full n a b ∧ 60 < b ∧ parseToksM (EDTF.Zone.toks z) F z.text = .inr (outOfRange (c! "time zone offset minute"))) ∨
    (∃ n a b, (z = .hours n a ∨ (z = .full n a b ∧ b ≤ 60)) ∧ 24 < a ∧ parseToksM (EDTF.Zone.toks z) F z.text = .inr (outOfRange (c! "time zone offset hour"))) := by
  have key := parseToks_zone h F hF
  rw [parseToksM_forget] at key
  by_cases hk : z.ok
  · refine .inl ⟨hk, ?_⟩
    rw [if_pos hk] at key
    cases e : parseToksM (EDTF.Zone.toks z) F z.text with
    | inr f => rw [e] at key; cases key
    | inl G =>
      rw [e] at key
      injection key with key
      subst key
      exact ⟨{ F with offset := z.offset }, rfl, rfl, rfl, rfl⟩
  · have g : ∀ {n : Nat}, n < 100 → getnum true [dig (n / 10 % 10), dig (n % 10)] = some ((n : Int), []) := by
      intro n hn
      have := getnum_pad2 true hn []
      simpa only [pad2, List.append_nil] using this
    cases z with
    | none => exact absurd trivial hk
    | utc => exact absurd trivial hk
    | hours n a =>
      have ha : 24 < a := by
        have : ¬ a ≤ 24 := hk
        omega
      refine .inr (.inr ⟨n, a, 0, .inl rfl, ha, ?_⟩)
      have k0 := zoneOffset_pad n (a := a) (b := 0) h (by omega)
      rw [show dig (0 / 10 % 10) = '0' by decide, if_neg (by omega)] at k0
      have : parseTok .tzShort F (Zone.hours n a).text = none := by
        simp only [Zone.text, parseTok, pad2, k0]
        rfl
      simp only [EDTF.Zone.toks]
      rw [parseToksM_stop _ _ _ _ this]
      simp only [tokFault, Zone.text, pad2, zoneFault]
      rw [g h, show getnum true ['0', '0'] = some (0, []) by decide]
      simp only
      rw [if_neg (by decide), if_pos (by omega)]
    | full n a b =>
      have hab : ¬ (a ≤ 24 ∧ b ≤ 60) := hk
      have k0 := zoneOffset_pad n (a := a) (b := b) h.1 h.2
      rw [if_neg hab] at k0
      have : parseTok .tzColon F (Zone.full n a b).text = none := by
        simp only [Zone.text, parseTok, pad2, List.cons_append, List.nil_append, k0]
        rfl
      have e : parseToksM (EDTF.Zone.toks (Zone.full n a b)) F (Zone.full n a b).text =
          .inr (if (b : Int) > 60 then outOfRange (c! "time zone offset minute")
            else if (a : Int) > 24 then outOfRange (c! "time zone offset hour") else .bad (Tok.text .tzColon) (Zone.full n a b).text) := by
        simp only [EDTF.Zone.toks]
        rw [parseToksM_stop _ _ _ _ this]
        simp only [tokFault, Zone.text, pad2, List.cons_append, List.nil_append, zoneFault, if_true]
        rw [g h.1, g h.2]
      by_cases hb : 60 < b
      · refine .inr (.inl ⟨n, a, b, rfl, hb, ?_⟩)
        rw [e, if_pos (by omega)]
      · refine .inr (.inr ⟨n, a, b, .inr ⟨rfl, by omega⟩, by omega, ?_⟩)
        rw [e, if_neg (by omega), if_pos (by omega)]

/-- Reading the time of day and the zone. -/
theorem toksM_clock {hh mi ss : Nat} {z : Zone} (k1 : hh < 100) (k2 : mi < 100) (k3 : ss < 100) (hz : z.shape) {y m d : Nat} (F : Fields)
    (hF : F.offset = 0) :
    ((hh < 24 ∧ mi < 60 ∧ ss < 60 ∧ z.ok) ∧ ∃ G : Fields, G.year = F.year ∧ G.month = F.month ∧ G.day = F.day ∧
      parseToksM (.lit 'T' :: .hour2 :: .lit ':' :: .min2 :: .lit ':' :: .sec2 :: (EDTF.Zone.toks z)) F (Spec.timePart hh mi ss z) = .inl G) ∨
    (∃ w, OutOfRange y m d hh mi ss z w ∧
      parseToksM (.lit 'T' :: .hour2 :: .lit ':' :: .min2 :: .lit ':' :: .sec2 :: (EDTF.Zone.toks z)) F (Spec.timePart hh mi ss z) = .inr (outOfRange w)) := by
  have gs : ∀ {b : Bool} {n : Nat} {r : Str}, n < 100 → (getnum b (pad2 n ++ r)).isSome = true := fun h => by rw [getnum_pad2 _ h]; rfl
  unfold Spec.timePart
  rw [parseToksM_cons _ _ _ _ _ _ (parseTok_lit _ _ _)]
  by_cases a1 : hh < 24
  · rw [parseToksM_cons _ _ _ _ _ _ (parseTok_hour2 _ a1 _), parseToksM_cons _ _ _ _ _ _ (parseTok_lit _ _ _)]
    by_cases a2 : mi < 60
    · rw [parseToksM_cons _ _ _ _ _ _ (parseTok_min2 _ a2 _), parseToksM_cons _ _ _ _ _ _ (parseTok_lit _ _ _)]
      by_cases a3 : ss < 60
      · rw [parseToksM_cons _ _ _ _ _ _ (parseTok_sec2 _ a3 _), dropFraction_zone]
        rcases toksM_zone hz _ (show ({ F with hour := (hh : Int), min := (mi : Int), sec := (ss : Int) } : Fields).offset = 0 from hF) with
          ⟨hk, G, q1, q2, q3, e⟩ | ⟨n, a, b, rfl, hb, e⟩ | ⟨n, a, b, hab, ha, e⟩
        · exact .inl ⟨⟨a1, a2, a3, hk⟩, G, q1, q2, q3, e⟩
        · exact .inr ⟨_, .zoneMinute a1 a2 a3 n a b rfl hb, e⟩
        · exact .inr ⟨_, .zoneHour a1 a2 a3 n a b hab ha, e⟩
      · refine .inr ⟨_, .second a1 a2 (by omega), ?_⟩
        rw [parseToksM_stop _ _ _ _ (parseTok_sec2_bad k3 a3 _ _)]
        simp only [tokFault, gs k3, if_true]
    · refine .inr ⟨_, .minute a1 (by omega), ?_⟩
      rw [parseToksM_stop _ _ _ _ (parseTok_min2_bad k2 a2 _ _)]
      simp only [tokFault, gs k2, if_true]
  · refine .inr ⟨_, .hour (by omega), ?_⟩
    rw [parseToksM_stop _ _ _ _ (parseTok_hour2_bad k1 a1 _ _)]
    simp only [tokFault, gs k1, if_true]

/-! ### The whole text -/

theorem timePart_eq (hh mi ss : Nat) (z : Zone) : Spec.timePart hh mi ss z = 'T' :: (hmsText hh mi ss ++ z.text) := by
  simp [Spec.timePart, hmsText]

theorem bare_pad4 (n : Nat) : (pad4 n).all bare = true := by
  rw [List.all_eq_true]
  intro c hc
  exact bare_isDX (by simp [isDX, List.all_eq_true.1 (pad4_all n) c hc])

theorem bare_pad2 (n : Nat) : (pad2 n).all bare = true := by
  rw [List.all_eq_true]
  intro c hc
  exact bare_isDX (pad2_DX n c hc)

theorem bare_zone (z : Zone) : z.text.all bare = true := by
  cases z with
  | none => rfl
  | utc => decide
  | hours n a => cases n <;> simp [Zone.text, Zone.sign, bare_pad2] <;> decide
  | full n a b => cases n <;> simp [Zone.text, Zone.sign, bare_pad2] <;> decide

theorem bare_timePart (hh mi ss : Nat) (z : Zone) : (Spec.timePart hh mi ss z).all bare = true := by
  have : bare 'T' = true ∧ bare ':' = true := by decide
  simp [Spec.timePart, bare_pad2, bare_zone, this]

theorem bare_date0 (x : Date0) : x.text.all bare = true := by
  have : bare '-' = true := by decide
  rw [date0_text]
  obtain ⟨n, y, t⟩ := x
  cases n <;> cases t <;> simp [yearStr, sgn, bare_pad4, bare_pad2, this]

theorem bare_clock (x : Date0) (hh mi ss : Nat) (z : Zone) : quoteText (x.text ++ Spec.timePart hh mi ss z) = quoted (x.text ++ Spec.timePart hh mi ss z) := by
  apply quoteText_bare
  rw [← List.all_eq_true, List.all_append, bare_date0, bare_timePart]
  rfl

theorem layout_text (neg : Bool) (z : Zone) :
    quoteText ((if neg then Tok.lit '-' :: (layoutDateTime ++ (EDTF.Zone.toks z)) else layoutDateTime ++ (EDTF.Zone.toks z)).flatMap Tok.text) = quoted (layoutText neg z) := by
  cases neg <;> cases z <;> first | rfl | decide

theorem prefix_date0 (x : Date0) (r : Str) : hasPrefix (x.text ++ r) (c! "-") = x.neg := by
  rw [date0_text]
  obtain ⟨n, y, t⟩ := x
  cases n
  · have : ∀ k, ('-' == dig (k % 10)) = false := fun k => by
      rw [beq_eq_false_iff_ne]
      exact fun e => dig_mod_ne k (by decide) e.symm
    simp [yearStr, sgn, hasPrefix, pad4, List.isPrefixOf, this]
  · simp [yearStr, sgn, hasPrefix]

/-- The outcome for a date and a time. -/
theorem timeM_eval {x : Date0} {hh mi ss : Nat} {z : Zone} (hx : x.shaped) (k1 : hh < 100) (k2 : mi < 100) (k3 : ss < 100) (hz : z.shape) :
    ∃ l : List Tok, l = (if x.neg then Tok.lit '-' :: (layoutDateTime ++ (EDTF.Zone.toks z)) else layoutDateTime ++ (EDTF.Zone.toks z)) ∧
    L0.parseDateAndTimeM (x.text ++ Spec.timePart hh mi ss z) = (do
      let t ← timeParseM l (x.text ++ Spec.timePart hh mi ss z)
      let t := if x.neg then timeToBCE t else t
      let d : Date := Date.setTime {} t
      let r : DateRange := { lower := some d, upper := some d }
      .ok ⟨some r, some r, x.text ++ Spec.timePart hh mi ss z, 0, L0.DATE_AND_TIME⟩) := by
  refine ⟨_, rfl, ?_⟩
  obtain ⟨mm, hm, c7, c8, c10⟩ := dt_submatch (x := x) hx k1 k2 k3 hz
  have hl := layoutFor_zone (s := x.text ++ Spec.timePart hh mi ss z) c7 c8 c10
  rw [prefix_date0] at hl
  unfold L0.parseDateAndTimeM
  rw [← timePart_eq] at hm
  rw [hm]
  simp only
  rw [hl, prefix_date0]

/-- Reading the layout with or without a sign. -/
theorem toksM_sign (x : Date0) (l : List Tok) (r : Str) (w : Str) (hw : x.text = sgn x.neg w) :
    parseToksM (if x.neg then Tok.lit '-' :: l else l) {} (x.text ++ r) = parseToksM l {} (w ++ r) := by
  rw [hw]
  cases x.neg
  · rfl
  · simp only [if_true, sgn, List.cons_append]
    rw [parseToksM_cons _ _ _ _ _ _ (parseTok_lit _ _ _)]

theorem out_unique {y m d hh mi ss : Nat} {z : Zone} {v w : Str} (h : OutOfRange y m d hh mi ss z v) (k : OutOfRange y m d hh mi ss z w) : v = w := by
  cases z <;> cases h <;> cases k <;> first | rfl | (exfalso; omega) | (exfalso; simp_all [Zone.ok] <;> omega)

/-- A time after a year or a month. -/
theorem timeM_short {x : Date0} {hh mi ss : Nat} {z : Zone} (hx : x.shaped) (ht : ∀ m d, x.tail ≠ .day m d) (k1 : hh < 100) (k2 : mi < 100)
    (k3 : ss < 100) (hz : z.shape) :
    L0.parseDateAndTimeM (x.text ++ Spec.timePart hh mi ss z) =
      .says (c! "parsing time " ++ quoted (x.text ++ Spec.timePart hh mi ss z) ++ c! " as " ++ quoted (layoutText x.neg z) ++
          c! ": cannot parse " ++ quoted (Spec.timePart hh mi ss z) ++ c! " as \"-\"") := by
  obtain ⟨l, hl, e⟩ := timeM_eval hx k1 k2 k3 hz
  have bad : ∀ (ts : List Tok) (F : Fields), parseToksM (.lit '-' :: ts) F (Spec.timePart hh mi ss z) = .inr (.bad (c! "-") (Spec.timePart hh mi ss z)) :=
    fun ts F => parseToksM_stop _ _ _ _ (by simp [Spec.timePart, parseTok])
  have hp : parseToksM l {} (x.text ++ Spec.timePart hh mi ss z) = .inr (.bad (c! "-") (Spec.timePart hh mi ss z)) := by
    obtain ⟨n, y, t⟩ := x
    rw [hl]
    cases t with
    | none =>
      rw [toksM_sign ⟨n, y, .none⟩ _ _ (pad4 y) (by rw [date0_text]; simp [yearStr, sgn])]
      unfold layoutDateTime layoutDate
      simp only [List.cons_append, List.nil_append]
      rw [parseToksM_cons _ _ _ _ _ _ (parseTok_year4 _ hx.1 _), bad]
    | month m =>
      rw [toksM_sign ⟨n, y, .month m⟩ _ _ (pad4 y ++ '-' :: pad2 m) (by rw [date0_text]; cases n <;> simp [yearStr, sgn])]
      unfold layoutDateTime layoutDate
      simp only [List.cons_append, List.nil_append, List.append_assoc]
      rw [parseToksM_cons _ _ _ _ _ _ (parseTok_year4 _ hx.1 _), parseToksM_cons _ _ _ _ _ _ (parseTok_lit _ _ _),
        parseToksM_cons _ _ _ _ _ _ (parseTok_mon2 _ hx.2.1 hx.2.2 _), bad]
    | day m d => exact absurd rfl (ht m d)
  rw [e]
  unfold timeParseM
  rw [hp]
  simp only [says_bindM]
  simp only [timeError, bare_clock, hl, layout_text]
  rw [quoteText_bare (List.all_eq_true.1 (bare_timePart hh mi ss z))]
  simp [quoteText, quoted]

/-- A time after a day. -/
theorem timeM_day {n : Bool} {y m d hh mi ss : Nat} {z : Zone} (hx : (⟨n, y, .day m d⟩ : Date0).shaped) (k1 : hh < 100) (k2 : mi < 100)
    (k3 : ss < 100) (hz : z.shape) :
    (∃ D, L0.parseDateAndTimeM ((⟨n, y, .day m d⟩ : Date0).text ++ Spec.timePart hh mi ss z) = .ok D ∧ ∀ w, ¬ OutOfRange y m d hh mi ss z w) ∨
    (∃ w, OutOfRange y m d hh mi ss z w ∧ L0.parseDateAndTimeM ((⟨n, y, .day m d⟩ : Date0).text ++ Spec.timePart hh mi ss z) =
      .says (c! "parsing time " ++ quoted ((⟨n, y, .day m d⟩ : Date0).text ++ Spec.timePart hh mi ss z) ++ c! ": " ++ w ++ c! " out of range")) := by
  obtain ⟨l, hl, e⟩ := timeM_eval hx k1 k2 k3 hz
  obtain ⟨hy, h1, h2, d1, d2⟩ := hx
  obtain ⟨F, f1, f2, f3, f4, hF⟩ := toksM_date hy h1 h2 (show d < 100 by omega)
    (.lit 'T' :: .hour2 :: .lit ':' :: .min2 :: .lit ':' :: .sec2 :: EDTF.Zone.toks z) (Spec.timePart hh mi ss z)
  have hp : parseToksM l {} ((⟨n, y, .day m d⟩ : Date0).text ++ Spec.timePart hh mi ss z) =
      parseToksM (.lit 'T' :: .hour2 :: .lit ':' :: .min2 :: .lit ':' :: .sec2 :: EDTF.Zone.toks z) F (Spec.timePart hh mi ss z) := by
    rw [hl, toksM_sign ⟨n, y, .day m d⟩ _ _ (pad4 y ++ '-' :: (pad2 m ++ '-' :: pad2 d)) (by rw [date0_text]; cases n <;> simp [yearStr, sgn]), ← hF]
    unfold layoutDateTime layoutDate
    simp only [List.cons_append, List.nil_append, List.append_assoc]
  have out : ∀ w, timeError l ((⟨n, y, .day m d⟩ : Date0).text ++ Spec.timePart hh mi ss z) (outOfRange w) =
      c! "parsing time " ++ quoted ((⟨n, y, .day m d⟩ : Date0).text ++ Spec.timePart hh mi ss z) ++ c! ": " ++ w ++ c! " out of range" := by
    intro w
    simp only [timeError, outOfRange, bare_clock]
    simp
  rcases toksM_clock k1 k2 k3 hz (y := y) (m := m) (d := d) F f4 with ⟨⟨a1, a2, a3, a4⟩, G, g1, g2, g3, hG⟩ | ⟨w, hw, hE⟩
  · by_cases V : Valid y m d
    · have ok : ∃ D, L0.parseDateAndTimeM ((⟨n, y, .day m d⟩ : Date0).text ++ Spec.timePart hh mi ss z) = .ok D := by
        rw [e]
        unfold timeParseM
        rw [hp, hG]
        simp only [g1, g2, g3, f1, f2, f3, daysIn_eq (y : Int) m h1 h2]
        rw [if_neg (by unfold Valid at V; omega), ok_bindM]
        exact ⟨_, rfl⟩
      obtain ⟨D, hD⟩ := ok
      refine .inl ⟨D, hD, ?_⟩
      intro w hw
      cases hw <;> first | omega | contradiction | (cases z <;> simp_all [Zone.ok] <;> omega)
    · refine .inr ⟨_, .day a1 a2 a3 a4 V, ?_⟩
      rw [e]
      unfold timeParseM
      rw [hp, hG]
      simp only [g1, g2, g3, f1, f2, f3, daysIn_eq (y : Int) m h1 h2]
      rw [if_pos (by unfold Valid at V; omega), says_bindM, out]
  · refine .inr ⟨w, hw, ?_⟩
    rw [e]
    unfold timeParseM
    rw [hp, hE]
    simp only [says_bindM, out]

/-- What the error for a date and a time says. -/
theorem time_says_iff {s t : Str} : (L0.isDateAndTime s = true ∧ L0.parseDateAndTimeM s = .says t) ↔ ClockText s t := by
  have inj : ∀ {a b : Str} {α : Type}, (Told.says a : Told α) = .says b → b = a := by
    intro a b α k
    injection k with k
    injection k with _ k
    exact k.symm
  constructor
  · rintro ⟨h, k⟩
    unfold L0.isDateAndTime at h
    rw [← isSome_submatch, Option.isSome_iff_exists] at h
    obtain ⟨m, hm⟩ := h
    obtain ⟨x, hh, mi, ss, z, hx, k1, k2, k3, hz, rfl, -⟩ := dt_caps hm
    rw [← timePart_eq] at k ⊢
    by_cases ht : ∀ m d, x.tail ≠ .day m d
    · rw [timeM_short hx ht k1 k2 k3 hz] at k
      rw [inj k]
      exact .short x hx ht hh mi ss k1 k2 k3 z hz
    · obtain ⟨n, y, tl⟩ := x
      cases tl with
      | none => exact absurd (fun m d => by simp) ht
      | month m => exact absurd (fun m d => by simp) ht
      | day m d =>
        rcases timeM_day hx k1 k2 k3 hz with ⟨D, e, -⟩ | ⟨w, hw, e⟩
        · rw [e] at k; cases k
        · rw [e] at k
          rw [inj k]
          exact .range n y m d hx hh mi ss k1 k2 k3 z hz w hw
  · intro h
    cases h with
    | short x hx ht hh mi ss h1 h2 h3 z hz =>
      refine ⟨?_, timeM_short hx ht h1 h2 h3 hz⟩
      rw [timePart_eq]
      exact isDateAndTime_text hx h1 h2 h3 hz
    | range neg y m d hx hh mi ss h1 h2 h3 z hz what hw =>
      refine ⟨?_, ?_⟩
      · rw [timePart_eq]
        exact isDateAndTime_text hx h1 h2 h3 hz
      · rcases timeM_day hx h1 h2 h3 hz with ⟨D, -, e⟩ | ⟨w, hw', e⟩
        · exact absurd hw (e _)
        · rw [out_unique hw hw']
          exact e

end EDTF
