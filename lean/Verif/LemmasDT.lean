/- Dates with a time of day: capture groups, layouts and offsets. -/
import Verif.PropsLevel1
namespace EDTF
open Spec

/-! ### The pattern -/

theorem char_split {c : Char} {a b a' b' : Str} (h : c ∉ a) (h' : c ∉ a') (e : a ++ c :: b = a' ++ c :: b') : a = a' ∧ b = b' := by
  induction a generalizing a' with
  | nil =>
    cases a' with
    | nil => simpa using e
    | cons c a' => injection e with e _; exact absurd (by simp [← e]) h'
  | cons c a ih =>
    cases a' with
    | nil => injection e with e _; exact absurd (by simp [e]) h
    | cons c' a' =>
      injection e with e1 e2
      obtain ⟨r1, r2⟩ := ih (fun hm => h (List.mem_cons_of_mem _ hm)) (fun hm => h' (List.mem_cons_of_mem _ hm)) e2
      exact ⟨by rw [e1, r1], r2⟩

theorem lang_digits2 {w : Str} : Lang (Re.rep Rx.digit 2) w ↔ ∃ n, n < 100 ∧ w = pad2 n := by
  have key := @lang_table2 (Re.rep Rx.digit 2) (fun _ => True) inferInstance (by decide) (by decide) ⟨[2], by decide, by decide⟩
    (by decide +kernel) w
  rw [key]
  simp

/-- Text of group 8, the sign of the offset. -/
def Zone.signText : Zone → Str
  | .hours n _ => [Zone.sign n]
  | .full n _ _ => [Zone.sign n]
  | _ => []

/-- Text of group 10, the minutes of the offset with their colon. -/
def Zone.minText : Zone → Str
  | .full _ _ mm => ':' :: pad2 mm
  | _ => []

/-- The zone part of the pattern, without its group. -/
def zoneRe (g : Nat) : Re :=
  Rx.lit 'Z' ∥ (.grp (g + 4) (Rx.lit '+' ∥ Rx.lit '-') ⬝ Rx.two (g + 5) ⬝ .opt (.grp (g + 6) (Rx.lit ':' ⬝ Rx.two (g + 7))))

/-- What a match of the pattern says about the string and its groups. -/
theorem dt_caps {s : Str} {m : Nat → Str} (h : Rx.DateAndTime.submatch s = some m) :
    ∃ (x : Date0) (hh mi ss : Nat) (z : Zone), (x.year < 10000 ∧ Date0.shapeOk x) ∧ hh < 100 ∧ mi < 100 ∧ ss < 100 ∧ z.shape ∧
      s = x.text ++ 'T' :: (hmsText hh mi ss ++ z.text) ∧ m 7 = z.text ∧ m 8 = Zone.signText z ∧ m 10 = Zone.minText z := by
  obtain ⟨st', h1, h2, rfl⟩ := submatch_anch_some h
  unfold Rx.dateAndTime Rx.timePart at h1
  obtain ⟨s1, a1, h1⟩ := mem_cat.1 h1
  obtain ⟨s2, a2, h1⟩ := mem_cat.1 h1
  obtain ⟨s3, a3, h1⟩ := mem_cat.1 h1
  obtain ⟨s4, a4, h1⟩ := mem_cat.1 h1
  obtain ⟨s5, a5, h1⟩ := mem_cat.1 h1
  obtain ⟨s6, a6, h1⟩ := mem_cat.1 h1
  obtain ⟨s7, a7, h1⟩ := mem_cat.1 h1
  obtain ⟨w1, e1, l1, c1⟩ := run_skip a1
  obtain ⟨w2, e2, l2, c2⟩ := run_skip a2
  obtain ⟨w3, e3, l3, c3⟩ := run_skip a3
  obtain ⟨w4, e4, l4, c4⟩ := run_skip a4
  obtain ⟨w5, e5, l5, c5⟩ := run_skip a5
  obtain ⟨w6, e6, l6, c6⟩ := run_skip a6
  obtain ⟨w7, e7, l7, c7⟩ := run_skip a7
  obtain ⟨x, hx, hx', rfl⟩ := lang_date.1 l1
  rw [lang_lit] at l2 l4 l6
  obtain ⟨hh, k1, rfl⟩ := lang_digits2.1 l3
  obtain ⟨mi, k2, rfl⟩ := lang_digits2.1 l5
  obtain ⟨ss, k3, rfl⟩ := lang_digits2.1 l7
  subst l2 l4 l6
  have c78 : ∀ i, i = 7 ∨ i = 8 ∨ i = 10 → capOf s7.caps i = [] := by
    rintro i (rfl | rfl | rfl) <;>
    rw [c7 _ (by decide), c6 _ (by decide), c5 _ (by decide), c4 _ (by decide), c3 _ (by decide), c2 _ (by decide), c1 _ (by decide)] <;> rfl
  simp only at e1
  have es : s = x.text ++ 'T' :: (hmsText hh mi ss ++ s7.rest) := by
    rw [e1, e2, e3, e4, e5, e6, e7]
    simp [hmsText]
  rcases mem_opt.1 h1 with h1 | rfl
  · obtain ⟨w, e, l, c, k⟩ := run_cap h1
    -- the alternatives inside group 7
    have inner : ∃ z : Zone, z.shape ∧ z.text = w ∧ capOf st'.caps 8 = Zone.signText z ∧ capOf st'.caps 10 = Zone.minText z := by
      have hrun : st' ∈ ((zoneRe 4).run s7).map (fun s => { s with caps := (7, s7.rest.take (s7.rest.length - s.rest.length)) :: s.caps }) := h1
      clear h1
      obtain ⟨st1, hz1, rfl⟩ := List.mem_map.1 hrun
      unfold zoneRe at hz1
      have hz : ∀ i, i ≠ 7 → capOf ((7, s7.rest.take (s7.rest.length - st1.rest.length)) :: st1.caps) i = capOf st1.caps i := by
        intro i hi; exact capOf_append_skip (cs := [_]) (by simp [Ne.symm hi])
      have hr : st1.rest = [] := h2
      have hw : s7.rest = w := by rw [e, hr]; simp
      change ∃ z : Zone, z.shape ∧ z.text = w ∧ capOf ((7, _) :: st1.caps) 8 = _ ∧ capOf ((7, _) :: st1.caps) 10 = _
      rw [hz 8 (by decide), hz 10 (by decide)]
      rcases mem_alt.1 hz1 with h1 | h1
      · obtain ⟨v, ev, lv, cv⟩ := run_skip h1
        rw [lang_lit] at lv
        refine ⟨.utc, trivial, ?_, ?_, ?_⟩
        · rw [← hw, ev, hr, lv]; rfl
        · rw [cv 8 (by decide)]; exact c78 8 (by simp)
        · rw [cv 10 (by decide)]; exact c78 10 (by simp)
      · obtain ⟨t1, b1, h1⟩ := mem_cat.1 h1
        obtain ⟨t2, b2, h1⟩ := mem_cat.1 h1
        obtain ⟨v1, f1, m1, d1, g1⟩ := run_cap b1
        obtain ⟨v2, f2, m2, d2⟩ := run_skip b2
        obtain ⟨zh, n1, rfl⟩ := lang_digits2.1 m2
        have hsg : ∃ neg, v1 = [Zone.sign neg] := by
          rcases lang_alt.1 m1 with m1 | m1
          · exact ⟨false, lang_lit.1 m1⟩
          · exact ⟨true, lang_lit.1 m1⟩
        obtain ⟨neg, rfl⟩ := hsg
        rcases mem_opt.1 h1 with h1 | rfl
        · obtain ⟨v3, f3, m3, d3, g3⟩ := run_cap h1
          obtain ⟨p, q, rfl, lp, lq⟩ := lang_cat.1 m3
          rw [lang_lit] at lp
          obtain ⟨zm, n2, rfl⟩ := lang_digits2.1 lq
          subst lp
          refine ⟨.full neg zh zm, ⟨n1, n2⟩, ?_, ?_, ?_⟩
          · rw [← hw, f1, f2, f3, hr]; simp [Zone.text]
          · rw [g3 8 (by decide) (by decide), d2 8 (by decide), d1]; rfl
          · rw [d3]; rfl
        · refine ⟨.hours neg zh, n1, ?_, ?_, ?_⟩
          · rw [← hw, f1, f2, hr]; simp [Zone.text]
          · rw [d2 8 (by decide), d1]; rfl
          · rw [d2 10 (by decide), g1 10 (by decide) (by decide)]; exact c78 10 (by simp)
    obtain ⟨z, z1, z2, z3, z4⟩ := inner
    refine ⟨x, hh, mi, ss, z, ⟨hx, hx'⟩, k1, k2, k3, z1, ?_, ?_, z3, z4⟩
    · rw [es, e, h2, List.append_nil, z2]
    · rw [c, z2]
  · exact ⟨x, hh, mi, ss, .none, ⟨hx, hx'⟩, k1, k2, k3, trivial, by rw [es, h2]; rfl, c78 7 (by simp), c78 8 (by simp), c78 10 (by simp)⟩

theorem lang_zone {g : Nat} {z : Zone} (h : z.shape) :
    Lang (.opt (.grp (g + 3) (Rx.lit 'Z' ∥ (.grp (g + 4) (Rx.lit '+' ∥ Rx.lit '-') ⬝ Rx.two (g + 5) ⬝
      .opt (.grp (g + 6) (Rx.lit ':' ⬝ Rx.two (g + 7))))))) z.text := by
  cases z with
  | none => exact Or.inl rfl
  | utc => exact Or.inr (Or.inl (lang_lit.2 rfl))
  | hours n a =>
    refine Or.inr (Or.inr ⟨[Zone.sign n], pad2 a, rfl, ?_, pad2 a, [], by simp, lang_digits2.2 ⟨a, h, rfl⟩, Or.inl rfl⟩)
    cases n
    · exact Or.inl (lang_lit.2 rfl)
    · exact Or.inr (lang_lit.2 rfl)
  | full n a b =>
    refine Or.inr (Or.inr ⟨[Zone.sign n], pad2 a ++ ':' :: pad2 b, rfl, ?_, pad2 a, ':' :: pad2 b, rfl, lang_digits2.2 ⟨a, h.1, rfl⟩,
      Or.inr ⟨[':'], pad2 b, rfl, lang_lit.2 rfl, lang_digits2.2 ⟨b, h.2, rfl⟩⟩⟩)
    cases n
    · exact Or.inl (lang_lit.2 rfl)
    · exact Or.inr (lang_lit.2 rfl)

theorem isDateAndTime_text {x : Date0} {hh mi ss : Nat} {z : Zone} (hx : x.year < 10000 ∧ Date0.shapeOk x) (k1 : hh < 100)
    (k2 : mi < 100) (k3 : ss < 100) (hz : z.shape) :
    L0.isDateAndTime (x.text ++ 'T' :: (hmsText hh mi ss ++ z.text)) = true := by
  unfold L0.isDateAndTime Rx.DateAndTime
  rw [matchString_anch _ (by decide)]
  refine ⟨x.text, 'T' :: (hmsText hh mi ss ++ z.text), rfl, lang_date.2 ⟨x, hx.1, hx.2, rfl⟩, ?_⟩
  refine ⟨['T'], _, rfl, lang_lit.2 rfl, pad2 hh, ':' :: (pad2 mi ++ ':' :: (pad2 ss ++ z.text)), by simp; rfl, lang_digits2.2 ⟨hh, k1, rfl⟩, ?_⟩
  refine ⟨[':'], _, rfl, lang_lit.2 rfl, pad2 mi, ':' :: (pad2 ss ++ z.text), rfl, lang_digits2.2 ⟨mi, k2, rfl⟩, ?_⟩
  exact ⟨[':'], _, rfl, lang_lit.2 rfl, pad2 ss, z.text, rfl, lang_digits2.2 ⟨ss, k3, rfl⟩, lang_zone hz⟩

theorem zone_inj {z z' : Zone} (h : z.shape) (h' : z'.shape) (e : z.text = z'.text) : z = z' := by
  have l2 : ∀ n, (pad2 n).length = 2 := fun n => rfl
  have hs : ∀ n n', Zone.sign n = Zone.sign n' → n = n' := by decide
  have key : ∀ {a b : Nat} {u v : Str}, pad2 a ++ u = pad2 b ++ v → a < 100 → b < 100 → a = b ∧ u = v := by
    intro a b u v e ha hb
    obtain ⟨e1, e2⟩ := List.append_inj e (by rw [l2, l2])
    exact ⟨pad2_inj ha hb e1, e2⟩
  have nz : ∀ n, Zone.sign n ≠ 'Z' := by decide
  cases z with
  | none => cases z' <;> first | rfl | (simp [Zone.text] at e)
  | utc =>
    cases z' with
    | utc => rfl
    | none => simp [Zone.text] at e
    | hours n a => simp only [Zone.text] at e; injection e with e _; exact absurd e.symm (nz n)
    | full n a b => simp only [Zone.text] at e; injection e with e _; exact absurd e.symm (nz n)
  | hours n a =>
    cases z' with
    | none => simp [Zone.text] at e
    | utc => simp only [Zone.text] at e; injection e with e _; exact absurd e (nz n)
    | hours n' a' =>
      simp only [Zone.text] at e
      injection e with e1 e2
      rw [hs _ _ e1, pad2_inj h h' e2]
    | full n' a' b' =>
      simp only [Zone.text] at e
      injection e with _ e2
      have := congrArg List.length e2
      simp [l2] at this
  | full n a b =>
    cases z' with
    | none => simp [Zone.text] at e
    | utc => simp only [Zone.text] at e; injection e with e _; exact absurd e (nz n)
    | hours n' a' =>
      simp only [Zone.text] at e
      injection e with _ e2
      have := congrArg List.length e2
      simp [l2] at this
    | full n' a' b' =>
      simp only [Zone.text] at e
      injection e with e1 e2
      obtain ⟨r1, r2⟩ := key e2 h.1 h'.1
      injection r2 with _ r2
      rw [hs _ _ e1, r1, pad2_inj h.2 h'.2 r2]

/-- The groups of a date-and-time string. -/
theorem dt_submatch {x : Date0} {hh mi ss : Nat} {z : Zone} (hx : x.year < 10000 ∧ Date0.shapeOk x) (k1 : hh < 100)
    (k2 : mi < 100) (k3 : ss < 100) (hz : z.shape) :
    ∃ m, Rx.DateAndTime.submatch (x.text ++ 'T' :: (hmsText hh mi ss ++ z.text)) = some m ∧
      m 7 = z.text ∧ m 8 = Zone.signText z ∧ m 10 = Zone.minText z := by
  have h := isDateAndTime_text hx k1 k2 k3 hz
  unfold L0.isDateAndTime at h
  rw [← isSome_submatch, Option.isSome_iff_exists] at h
  obtain ⟨m, hm⟩ := h
  obtain ⟨x', hh', mi', ss', z', -, -, -, -, hz', e, r⟩ := dt_caps hm
  obtain ⟨-, e2⟩ := char_split (date0_not_mem x (by decide) (by decide)) (date0_not_mem x' (by decide) (by decide)) e
  have e3 := (List.append_inj e2 (by simp [hmsText, pad2])).2
  obtain rfl := zone_inj hz hz' e3
  exact ⟨m, hm, r⟩

/-! ### The layout -/

/-- The layout elements of a zone. -/
def Zone.toks : Zone → List Tok
  | .none => []
  | .utc => [.lit 'Z']
  | .hours _ _ => [.tzShort]
  | .full _ _ _ => [.tzColon]

theorem layoutFor_zone {m : Nat → Str} {s : Str} {z : Zone} (h7 : m 7 = z.text) (h8 : m 8 = Zone.signText z) (h10 : m 10 = Zone.minText z) :
    L0.layoutFor m s = if hasPrefix s (c! "-") then .lit '-' :: (layoutDateTime ++ Zone.toks z) else layoutDateTime ++ Zone.toks z := by
  unfold L0.layoutFor
  simp only [h7, h8, h10]
  cases z with
  | none => rfl
  | utc => rfl
  | hours n a => cases n <;> simp [Zone.signText, Zone.minText, Zone.sign, Zone.toks, hasPrefix]
  | full n a b => cases n <;> simp [Zone.signText, Zone.minText, Zone.sign, Zone.toks, hasPrefix]

theorem zoneOffset_pad (n : Bool) {a b : Nat} (ha : a < 100) (hb : b < 100) :
    zoneOffset (Zone.sign n) (dig (a / 10 % 10)) (dig (a % 10)) (dig (b / 10 % 10)) (dig (b % 10)) =
      if a ≤ 24 ∧ b ≤ 60 then some (Zone.offset (.full n a b)) else none := by
  have ga := getnum_pad2 true ha []
  have gb := getnum_pad2 true hb []
  simp only [pad2, List.append_nil] at ga gb
  unfold zoneOffset
  rw [ga, gb]
  by_cases hr : a ≤ 24 ∧ b ≤ 60
  · rw [if_pos hr]
    simp only
    rw [if_neg (by omega)]
    cases n
    · simp [Zone.sign, Zone.offset]; omega
    · simp [Zone.sign, Zone.offset]; omega
  · rw [if_neg hr]
    simp only
    rw [if_pos (by omega)]

theorem parseToks_zone {z : Zone} (h : z.shape) (F : Fields) (hF : F.offset = 0) :
    parseToks (Zone.toks z) F z.text = if z.ok then some { F with offset := z.offset } else none := by
  have e0 : ({ F with offset := 0 } : Fields) = F := by cases F; simp at hF; simp [hF]
  cases z with
  | none => simp [Zone.toks, Zone.text, parseToks, Zone.ok, Zone.offset, e0]
  | utc => simp [Zone.toks, Zone.text, parseToks, parseTok, Zone.ok, Zone.offset, e0]
  | hours n a =>
    have key := zoneOffset_pad n (a := a) (b := 0) h (by omega)
    have d0 : dig (0 / 10 % 10) = '0' := by decide
    rw [d0] at key
    simp only [Zone.toks, Zone.text, parseToks, parseTok, pad2, key, Zone.ok]
    by_cases hr : a ≤ 24
    · simp [hr, Zone.offset]
    · simp [hr]
  | full n a b =>
    have key := zoneOffset_pad n (a := a) (b := b) h.1 h.2
    simp only [Zone.toks, Zone.text, parseToks, parseTok, pad2, List.cons_append, List.nil_append, key, Zone.ok]
    by_cases hr : a ≤ 24 ∧ b ≤ 60
    · simp [hr]
    · simp [hr]

theorem parseTok_hour2_bad {n : Nat} (h : n < 100) (hn : ¬ n < 24) (F : Fields) (rest : Str) :
    parseTok .hour2 F (pad2 n ++ rest) = none := by
  simp only [parseTok, getnum_pad2 false h]; rw [if_pos (by omega)]
theorem parseTok_min2_bad {n : Nat} (h : n < 100) (hn : ¬ n < 60) (F : Fields) (rest : Str) :
    parseTok .min2 F (pad2 n ++ rest) = none := by
  simp only [parseTok, getnum_pad2 true h]; rw [if_pos (by omega)]
theorem parseTok_sec2_bad {n : Nat} (h : n < 100) (hn : ¬ n < 60) (F : Fields) (rest : Str) :
    parseTok .sec2 F (pad2 n ++ rest) = none := by
  simp only [parseTok, getnum_pad2 true h]; rw [if_pos (by omega)]

theorem parseToks_dateTime_bad {y m d hh mi ss : Nat} (hy : y < 10000) (h1 : 1 ≤ m) (h2 : m ≤ 12) (hd : d < 100)
    (k1 : hh < 100) (k2 : mi < 100) (k3 : ss < 100) (hb : ¬ (hh < 24 ∧ mi < 60 ∧ ss < 60)) (ts : List Tok) (rest : Str) :
    parseToks (layoutDateTime ++ ts) {}
      (pad4 y ++ (c! "-" ++ (pad2 m ++ (c! "-" ++ (pad2 d ++ (c! "T" ++ (hmsText hh mi ss ++ rest))))))) = none := by
  simp only [layoutDateTime, layoutDate, hmsText, List.append_assoc, parseToks, parseTok_year4 _ hy, List.cons_append,
    List.nil_append, parseTok_lit, parseTok_mon2 _ h1 h2, parseTok_day2 _ hd]
  by_cases a1 : hh < 24
  · simp only [parseTok_hour2 _ a1, parseTok_lit, parseToks]
    by_cases a2 : mi < 60
    · simp only [parseTok_min2 _ a2, parseTok_lit, parseToks]
      rw [parseTok_sec2_bad k3 (by omega)]
    · rw [parseTok_min2_bad k2 a2]
  · rw [parseTok_hour2_bad k1 a1]

theorem dropFraction_zone (z : Zone) : dropFraction z.text = z.text := by
  cases z with
  | none => rfl
  | utc => rfl
  | hours n a => cases n <;> simp [Zone.text, Zone.sign, pad2, dropFraction]
  | full n a b => cases n <;> simp [Zone.text, Zone.sign, pad2, dropFraction]

/-- time.Parse of a date with a time of day and a zone. -/
theorem timeParse_zone {y m d hh mi ss : Nat} {z : Zone} (hy : y < 10000) (h1 : 1 ≤ m) (h2 : m ≤ 12) (hd : d < 100)
    (k1 : hh < 100) (k2 : mi < 100) (k3 : ss < 100) (hz : z.shape) :
    timeParse (layoutDateTime ++ Zone.toks z)
      (pad4 y ++ (c! "-" ++ (pad2 m ++ (c! "-" ++ (pad2 d ++ (c! "T" ++ (hmsText hh mi ss ++ z.text))))))) =
    if Valid y m d ∧ (hh < 24 ∧ mi < 60 ∧ ss < 60) ∧ z.ok then some (unixDay y m d * 86400 + secOf hh mi ss - z.offset) else none := by
  unfold timeParse
  by_cases hb : hh < 24 ∧ mi < 60 ∧ ss < 60
  · rw [parseToks_dateTime hy h1 h2 hd hb.1 hb.2.1 hb.2.2, dropFraction_zone, parseToks_zone hz _ rfl]
    by_cases hk : z.ok
    · rw [if_pos hk]
      simp only [daysIn_eq (y : Int) m h1 h2]
      by_cases V : Valid y m d
      · rw [if_neg (by unfold Valid at V; omega), goDate_eq, if_pos ⟨V, hb, hk⟩]
      · rw [if_pos (by unfold Valid at V; omega), if_neg (fun c => V c.1)]
    · rw [if_neg hk, if_neg (fun c => hk c.2.2)]
  · rw [parseToks_dateTime_bad hy h1 h2 hd k1 k2 k3 hb, if_neg (fun c => hb c.2.1)]

theorem clockText_eq (neg : Bool) (y m d hh mi ss : Nat) (z : Zone) :
    clockText neg y m d hh mi ss z = (⟨neg, y, .day m d⟩ : Date0).text ++ 'T' :: (hmsText hh mi ss ++ z.text) := by
  rw [date0_text]
  cases neg <;> simp [clockText, yearStr, sgn]

/-- The reading of the written (unsigned) year, minus the offset. -/
def localTime (y m d hh mi ss : Nat) (z : Zone) : Int := unixDay y m d * 86400 + secOf hh mi ss - z.offset

/-- The complete behaviour on strings of the form `[-]YYYY-MM-DDThh:mm:ss[zone]`. -/
theorem parse_clock {neg : Bool} {y m d hh mi ss : Nat} {z : Zone} (hy : y < 10000) (h1 : 1 ≤ m) (h2 : m ≤ 12) (d1 : 1 ≤ d) (d2 : d ≤ 31)
    (k1 : hh < 100) (k2 : mi < 100) (k3 : ss < 100) (hz : z.shape) :
    parseString (clockText neg y m d hh mi ss z) =
      if Valid y m d ∧ (hh < 24 ∧ mi < 60 ∧ ss < 60) ∧ z.ok then
        .ok (instantResult (clockText neg y m d hh mi ss z)
          (Date.setTime {} (if neg then timeToBCE (localTime y m d hh mi ss z) else localTime y m d hh mi ss z)))
      else .err .plain := by
  have hx : (⟨neg, y, .day m d⟩ : Date0).year < 10000 ∧ Date0.shapeOk ⟨neg, y, .day m d⟩ := ⟨hy, h1, h2, d1, d2⟩
  have hdt := isDateAndTime_text hx k1 k2 k3 hz
  obtain ⟨mm, hm, c7, c8, c10⟩ := dt_submatch hx k1 k2 k3 hz
  have hnd : L0.isDate ((⟨neg, y, .day m d⟩ : Date0).text ++ 'T' :: (hmsText hh mi ss ++ z.text)) = false := by
    rw [Bool.eq_false_iff]
    intro h
    obtain ⟨x, -, -, e⟩ := isDate_iff.1 h
    exact date0_not_mem x (c := 'T') (by decide) (by decide) (by rw [← e]; simp)
  rw [← clockText_eq] at hdt hm hnd
  have hl : L0.isLevel0 (clockText neg y m d hh mi ss z) = true := by rw [isLevel0_iff, hdt]; simp
  unfold parseString
  rw [if_pos hl]
  unfold L0.parseString
  rw [if_neg (by rw [hnd]; decide), if_pos hdt]
  unfold L0.parseDateAndTime
  rw [hm]
  simp only
  rw [layoutFor_zone c7 c8 c10]
  have key := timeParse_zone hy h1 h2 (show d < 100 by omega) k1 k2 k3 hz
  cases neg with
  | false =>
    have hp : hasPrefix (clockText false y m d hh mi ss z) (c! "-") = false := by
      have : '-' ≠ dig (y / 1000 % 10) := (dig_mod_ne _ (by decide)).symm
      simp [clockText, pad4, hasPrefix, List.isPrefixOf, this]
    have e : clockText false y m d hh mi ss z =
        pad4 y ++ (c! "-" ++ (pad2 m ++ (c! "-" ++ (pad2 d ++ (c! "T" ++ (hmsText hh mi ss ++ z.text)))))) := by simp [clockText]
    rw [hp]
    rw [← e] at key
    simp only [Bool.false_eq_true, if_false]
    rw [key]
    by_cases hc : Valid y m d ∧ (hh < 24 ∧ mi < 60 ∧ ss < 60) ∧ z.ok
    · rw [if_pos hc, if_pos hc]; rfl
    · rw [if_neg hc, if_neg hc]
  | true =>
    have e : clockText true y m d hh mi ss z =
        '-' :: (pad4 y ++ (c! "-" ++ (pad2 m ++ (c! "-" ++ (pad2 d ++ (c! "T" ++ (hmsText hh mi ss ++ z.text))))))) := by simp [clockText]
    have hp : hasPrefix (clockText true y m d hh mi ss z) (c! "-") = true := by rw [e]; simp [hasPrefix]
    rw [hp]
    simp only [if_true]
    have step : timeParse (.lit '-' :: (layoutDateTime ++ Zone.toks z)) (clockText true y m d hh mi ss z) =
        timeParse (layoutDateTime ++ Zone.toks z)
      (pad4 y ++ (c! "-" ++ (pad2 m ++ (c! "-" ++ (pad2 d ++ (c! "T" ++ (hmsText hh mi ss ++ z.text))))))) := by
      rw [e]
      unfold timeParse
      conv => lhs; unfold parseToks
      simp only [parseTok_lit]
    rw [step, key]
    by_cases hc : Valid y m d ∧ (hh < 24 ∧ mi < 60 ∧ ss < 60) ∧ z.ok
    · rw [if_pos hc, if_pos hc]; rfl
    · rw [if_neg hc, if_neg hc]

end EDTF
