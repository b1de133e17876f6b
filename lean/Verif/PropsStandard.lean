/-
C87: compliance with the EDTF specification of 4 February 2019 (README.md:3).
-/
import Verif.LemmasStandard1
import Verif.LemmasStandard3
import Verif.LemmasStandard5
namespace EDTF
open Spec
variable {f : Int → Nat → Nat → Int}

theorem verdict (hf : DayCount f) {t : Term} (h : t.ok) : Verdict f t := by
  cases t with
  | date x => exact verdict_date hf h
  | time y m d hh mi ss z => exact verdict_time hf h
  | interval a b => exact verdict_interval hf h
  | letter neg ds => exact verdict_letter h
  | season n z => exact verdict_season hf h
  | qualified x q => exact verdict_qualified hf h
  | fromRight x => exact verdict_fromRight hf h
  | extended l r => exact verdict_extended hf h
  | negative n => exact verdict_negative hf h
  | exponential neg ms es => exact verdict_exponential hf h
  | significant y ks => exact verdict_significant hf h
  | grouping n g => exact verdict_grouping hf h
  | set all ps => exact verdict_set hf h
  | group x qy qm qd => exact verdict_group hf h
  | individual x qy qm qd => exact verdict_individual hf h
  | digits x => exact verdict_digits hf h
  | portions a b => exact verdict_portions hf h

/-- C87: an expression of the standard is read and means what the standard says just when
it is one of the supported ones. -/
theorem C87_exact (hf : DayCount f) {t : Term} (h : t.ok) : (∃ d, parseString t.text = .ok d ∧ t.Honoured f d) ↔ t.Supported := by
  rcases verdict hf h with ⟨d, hp, -, hd⟩ | ⟨hn, -, hs⟩
  · rw [← hd, hp]
    constructor
    · rintro ⟨d', e, k⟩
      injection e with e
      exact e ▸ k
    · exact fun k => ⟨d, rfl, k⟩
  · exact ⟨fun ⟨d, hp, _⟩ => absurd hp (hn d), fun k => absurd k hs⟩

/-- C87: which expressions of the standard are read at all. -/
theorem C87_taken {t : Term} (h : t.ok) : (∃ d, parseString t.text = .ok d) ↔ t.Taken := by
  rcases verdict dayCount_unixDay h with ⟨d, hp, ht, -⟩ | ⟨hn, ht, -⟩
  · exact ⟨fun _ => ht, fun _ => ⟨d, hp⟩⟩
  · exact ⟨fun ⟨d, hp⟩ => absurd hp (hn d), fun k => absurd k ht⟩

/-- C87: which expressions of the standard are read with another meaning, without an error. -/
theorem C87_wrong (hf : DayCount f) {t : Term} (h : t.ok) : (∃ d, parseString t.text = .ok d ∧ ¬ t.Honoured f d) ↔ t.Taken ∧ ¬ t.Supported := by
  rcases verdict hf h with ⟨d, hp, ht, hd⟩ | ⟨hn, ht, -⟩
  · rw [← hd, hp]
    constructor
    · rintro ⟨d', e, k⟩
      injection e with e
      exact ⟨ht, e ▸ k⟩
    · exact fun k => ⟨d, rfl, k.2⟩
  · exact ⟨fun ⟨d, hp, _⟩ => absurd hp (hn d), fun k => absurd k.1 ht⟩

/-- C87: which expressions of the standard make the program panic.  (The others that are not
read give an error.) -/
theorem C87_panics {t : Term} (h : t.ok) : parseString t.text = .panic ↔ t.Crashes := by
  have taken : t.Taken → parseString t.text ≠ .panic := by
    intro ht k
    obtain ⟨d, hd⟩ := (C87_taken h).2 ht
    rw [hd] at k
    cases k
  cases t with
  | exponential neg ms es => exact crash_exponential h
  | significant y ks => exact crash_significant h
  | letter neg ds =>
    refine ⟨fun k => loud ((C63_panic _).1 k) ?_, nofun⟩
    have hd : Quiet (ds.map dig) := by
      intro c hc
      obtain ⟨k, hk, rfl⟩ := List.mem_map.1 hc
      exact quiet_dig (h.1.1.2 k hk)
    refine quiet_cons.2 ⟨by decide, ?_⟩
    cases neg
    · exact hd
    · exact quiet_cons.2 ⟨by decide, hd⟩
  | season n z => exact ⟨fun k => loud ((C63_panic _).1 k) (quiet_append.2 ⟨quiet_pad4 n, quiet_cons.2 ⟨by decide, quiet_pad2 _⟩⟩), nofun⟩
  | grouping n g => exact ⟨fun k => loud ((C63_panic _).1 k) (quiet_append.2 ⟨quiet_pad4 n, quiet_cons.2 ⟨by decide, quiet_pad2 _⟩⟩), nofun⟩
  | extended l r => exact ⟨fun k => loud ((C63_panic _).1 k) (quiet_append.2 ⟨quiet_edge h.1, quiet_cons.2 ⟨by decide, quiet_edge h.2.1⟩⟩), nofun⟩
  | digits x => exact ⟨fun k => loud ((C63_panic _).1 k) (quiet_xdate h.1), nofun⟩
  | portions a b => exact ⟨fun k => loud ((C63_panic _).1 k) (quiet_append.2 ⟨quiet_endpoint h.1.1, quiet_cons.2 ⟨by decide, quiet_endpoint h.2.1.1⟩⟩), nofun⟩
  | _ => exact ⟨fun k => absurd k (taken trivial), nofun⟩

/-- C87: Level 0 is supported. -/
theorem C87_level0 (hf : DayCount f) {t : Term} (h : t.ok) (hl : t.feature.level = 0) : ∃ d, parseString t.text = .ok d ∧ t.Honoured f d := by
  rw [C87_exact hf h]
  cases t <;> first | trivial | cases hl

/-! ### The examples of the standard -/

/-- The examples that the standard gives, in its order, and the expressions they are. -/
def standardExamples : List (Str × Term) := [
  (c! "1985-04-12", .date ⟨false, 1985, .day 4 12⟩),
  (c! "1985-04", .date ⟨false, 1985, .month 4⟩),
  (c! "1985", .date ⟨false, 1985, .none⟩),
  (c! "1985-04-12T23:20:30", .time 1985 4 12 23 20 30 .none),
  (c! "1985-04-12T23:20:30Z", .time 1985 4 12 23 20 30 .utc),
  (c! "1985-04-12T23:20:30-04", .time 1985 4 12 23 20 30 (.hours true 4)),
  (c! "1985-04-12T23:20:30+04:30", .time 1985 4 12 23 20 30 (.full false 4 30)),
  (c! "1964/2008", .interval ⟨false, 1964, .none⟩ ⟨false, 2008, .none⟩),
  (c! "2004-06/2006-08", .interval ⟨false, 2004, .month 6⟩ ⟨false, 2006, .month 8⟩),
  (c! "2004-02-01/2005-02-08", .interval ⟨false, 2004, .day 2 1⟩ ⟨false, 2005, .day 2 8⟩),
  (c! "2004-02-01/2005-02", .interval ⟨false, 2004, .day 2 1⟩ ⟨false, 2005, .month 2⟩),
  (c! "2004-02-01/2005", .interval ⟨false, 2004, .day 2 1⟩ ⟨false, 2005, .none⟩),
  (c! "2005/2006-02", .interval ⟨false, 2005, .none⟩ ⟨false, 2006, .month 2⟩),
  (c! "Y170000002", .letter false [1, 7, 0, 0, 0, 0, 0, 0, 2]),
  (c! "Y-170000002", .letter true [1, 7, 0, 0, 0, 0, 0, 0, 2]),
  (c! "2001-21", .season 2001 .spring),
  (c! "1984?", .qualified ⟨false, 1984, .none⟩ '?'),
  (c! "2004-06~", .qualified ⟨false, 2004, .month 6⟩ '~'),
  (c! "2004-06-11%", .qualified ⟨false, 2004, .day 6 11⟩ '%'),
  (c! "201X", .fromRight ⟨false, c! "201X", .none⟩),
  (c! "20XX", .fromRight ⟨false, c! "20XX", .none⟩),
  (c! "2004-XX", .fromRight ⟨false, c! "2004", .month (c! "XX")⟩),
  (c! "1985-04-XX", .fromRight ⟨false, c! "1985", .day (c! "04") (c! "XX")⟩),
  (c! "1985-XX-XX", .fromRight ⟨false, c! "1985", .day (c! "XX") (c! "XX")⟩),
  (c! "1985-04-12/..", .extended (.date ⟨false, 1985, .day 4 12⟩ none) .opened),
  (c! "1985-04/..", .extended (.date ⟨false, 1985, .month 4⟩ none) .opened),
  (c! "1985/..", .extended (.date ⟨false, 1985, .none⟩ none) .opened),
  (c! "../1985-04-12", .extended .opened (.date ⟨false, 1985, .day 4 12⟩ none)),
  (c! "../1985-04", .extended .opened (.date ⟨false, 1985, .month 4⟩ none)),
  (c! "../1985", .extended .opened (.date ⟨false, 1985, .none⟩ none)),
  (c! "1985-04-12/", .extended (.date ⟨false, 1985, .day 4 12⟩ none) .unknown),
  (c! "1985-04/", .extended (.date ⟨false, 1985, .month 4⟩ none) .unknown),
  (c! "1985/", .extended (.date ⟨false, 1985, .none⟩ none) .unknown),
  (c! "/1985-04-12", .extended .unknown (.date ⟨false, 1985, .day 4 12⟩ none)),
  (c! "/1985-04", .extended .unknown (.date ⟨false, 1985, .month 4⟩ none)),
  (c! "/1985", .extended .unknown (.date ⟨false, 1985, .none⟩ none)),
  (c! "-1985", .negative 1985),
  (c! "Y-17E7", .exponential true [1, 7] [7]),
  (c! "1950S2", .significant (.four 1950) [2]),
  (c! "Y171010000S3", .significant (.letter false [1, 7, 1, 0, 1, 0, 0, 0, 0]) [3]),
  (c! "Y3388E2S3", .significant (.exponential false [3, 3, 8, 8] [2]) [3]),
  (c! "2001-34", .grouping 2001 (.quarter 1)),
  (c! "[1667,1668,1670..1672]", .set false [.one ⟨false, 1667, .none⟩, .one ⟨false, 1668, .none⟩, .pair ⟨false, 1670, .none⟩ ⟨false, 1672, .none⟩]),
  (c! "[..1760-12-03]", .set false [.upTo ⟨false, 1760, .day 12 3⟩]),
  (c! "[1760-12..]", .set false [.onFrom ⟨false, 1760, .month 12⟩]),
  (c! "[1760-01,1760-02,1760-12..]", .set false [.one ⟨false, 1760, .month 1⟩, .one ⟨false, 1760, .month 2⟩, .onFrom ⟨false, 1760, .month 12⟩]),
  (c! "[1667,1760-12]", .set false [.one ⟨false, 1667, .none⟩, .one ⟨false, 1760, .month 12⟩]),
  (c! "[..1984]", .set false [.upTo ⟨false, 1984, .none⟩]),
  (c! "{1667,1668,1670..1672}", .set true [.one ⟨false, 1667, .none⟩, .one ⟨false, 1668, .none⟩, .pair ⟨false, 1670, .none⟩ ⟨false, 1672, .none⟩]),
  (c! "{1960,1961-12}", .set true [.one ⟨false, 1960, .none⟩, .one ⟨false, 1961, .month 12⟩]),
  (c! "{..1984}", .set true [.upTo ⟨false, 1984, .none⟩]),
  (c! "2004-06-11%", .group ⟨false, 2004, .day 6 11⟩ none none (some '%')),
  (c! "2004-06~-11", .group ⟨false, 2004, .day 6 11⟩ none (some '~') none),
  (c! "2004?-06-11", .group ⟨false, 2004, .day 6 11⟩ (some '?') none none),
  (c! "?2004-06-~11", .individual ⟨false, 2004, .day 6 11⟩ (some '?') none (some '~')),
  (c! "2004-%06-11", .individual ⟨false, 2004, .day 6 11⟩ none (some '%') none),
  (c! "156X-12-25", .digits ⟨false, c! "156X", .day (c! "12") (c! "25")⟩),
  (c! "15XX-12-25", .digits ⟨false, c! "15XX", .day (c! "12") (c! "25")⟩),
  (c! "XXXX-12-XX", .digits ⟨false, c! "XXXX", .day (c! "12") (c! "XX")⟩),
  (c! "1XXX-XX", .digits ⟨false, c! "1XXX", .month (c! "XX")⟩),
  (c! "1XXX-12", .digits ⟨false, c! "1XXX", .month (c! "12")⟩),
  (c! "1984-1X", .digits ⟨false, c! "1984", .month (c! "1X")⟩),
  (c! "2004-06-~01/2004-06-~20", .portions ⟨⟨false, c! "2004", .day (c! "06") (c! "01")⟩, .none, .none, .left '~'⟩ ⟨⟨false, c! "2004", .day (c! "06") (c! "20")⟩, .none, .none, .left '~'⟩),
  (c! "2004-06-XX/2004-07-03", .portions ⟨⟨false, c! "2004", .day (c! "06") (c! "XX")⟩, .none, .none, .none⟩ ⟨⟨false, c! "2004", .day (c! "07") (c! "03")⟩, .none, .none, .none⟩)]

theorem part_one {x : Date0} : (Part.one x).standard ↔ x.ok ∧ x.neg = false := by
  simp [Part.standard, Part.dates]
theorem part_upTo {x : Date0} : (Part.upTo x).standard ↔ x.ok ∧ x.neg = false := by
  simp [Part.standard, Part.dates]
theorem part_onFrom {x : Date0} : (Part.onFrom x).standard ↔ x.ok ∧ x.neg = false := by
  simp [Part.standard, Part.dates]
theorem part_pair {a b : Date0} : (Part.pair a b).standard ↔ ((a.ok ∧ a.neg = false) ∧ (b.ok ∧ b.neg = false)) ∧ a.tail.same b.tail = true ∧ a.EndsBy b := by
  simp [Part.standard, Part.dates]

/-- The greatest text, found among the members. -/
theorem set_last (ps : List Part) (b : Date0) (hb : b ∈ members ps) (k : ∀ x ∈ members ps, TextLe x.text b.text)
    (h : ∀ b ∈ members ps, (∀ x ∈ members ps, strLe x.text b.text = true) → ∀ x ∈ members ps, x.EndsBy b) : ∀ x ∈ members ps, x.EndsBy b :=
  h b hb fun x hx => textLe_iff.1 (k x hx)

def xcheck (c : Char) : Bool := c == 'X' || isDig c
theorem xcheck_iff {c : Char} (h : xcheck c = true) : XDigit c := by
  simp only [xcheck, Bool.or_eq_true, beq_iff_eq, isDig_iff] at h
  exact h

def xdateOk (x : XDate) : Bool :=
  x.year.length == 4 && x.year.all xcheck &&
  match x.tail with
  | .none => true
  | .month m => m.length == 2 && m.all xcheck
  | .day m d => m.length == 2 && m.all xcheck && d.length == 2 && d.all xcheck

theorem xdate_ok (x : XDate) (h : xdateOk x = true) : x.ok := by
  obtain ⟨neg, y, t⟩ := x
  cases t <;> simp only [xdateOk, Bool.and_eq_true, beq_iff_eq, List.all_eq_true, and_true] at h
  · exact ⟨h.1, fun c hc => xcheck_iff (h.2 c hc), trivial⟩
  · exact ⟨h.1.1, fun c hc => xcheck_iff (h.1.2 c hc), h.2.1, fun c hc => xcheck_iff (h.2.2 c hc)⟩
  · exact ⟨h.1.1, fun c hc => xcheck_iff (h.1.2 c hc), h.2.1.1.1, fun c hc => xcheck_iff (h.2.1.1.2 c hc), h.2.1.2, fun c hc => xcheck_iff (h.2.2 c hc)⟩

def fitsB : Str → Str → Bool
  | [], [] => true
  | p :: ps, c :: cs => (p == 'X' || p == c) && fitsB ps cs
  | _, _ => false

theorem fits_of : ∀ {p t : Str}, fitsB p t = true → Fits p t
  | [], [], _ => trivial
  | [], _ :: _, h => by cases h
  | _ :: _, [], h => by cases h
  | p :: ps, c :: cs, h => by
      simp only [fitsB, Bool.and_eq_true, Bool.or_eq_true, beq_iff_eq] at h
      exact ⟨h.1, fits_of h.2⟩

def readsB (x : XDate) (y m d : Nat) : Bool :=
  !x.neg && decide (Valid y m d) && decide (y < 10000) && fitsB x.year (pad4 y) &&
  match x.tail with
  | .none => true
  | .month p => fitsB p (pad2 m)
  | .day p q => fitsB p (pad2 m) && fitsB q (pad2 d)

theorem reads_of (x : XDate) (y m d : Nat) (h : readsB x y m d = true) : ∃ y m d, x.Reads y m d := by
  obtain ⟨neg, w, t⟩ := x
  refine ⟨y, m, d, ?_⟩
  simp only [readsB, Bool.and_eq_true, Bool.not_eq_true', decide_eq_true_eq] at h
  obtain ⟨⟨⟨⟨hn, hv⟩, hy⟩, hw⟩, ht⟩ := h
  subst hn
  refine ⟨hv, ⟨y, hy, rfl, fits_of hw⟩, ?_⟩
  cases t with
  | none => trivial
  | month p => exact fits_of ht
  | day p q =>
    simp only [Bool.and_eq_true] at ht
    exact ⟨fits_of ht.1, fits_of ht.2⟩

theorem understood_dec (x : XDate) (h : ('X' ∈ x.year → x.year.head? ≠ some 'X' ∧ x.year.getLast? = some 'X') ∧
    ('X' ∈ x.mx → x.mx = c! "XX" ∨ x.mx = c! "1X") ∧ ('X' ∈ x.dx → x.dx = c! "XX" ∨ x.dx = c! "1X" ∨ x.dx = c! "2X" ∨ x.dx = c! "3X"))
    (h2 : x.mx ≠ c! "02") : x.Understood := ⟨h.1, h.2.1, h.2.2, fun k => absurd k h2⟩

local macro "std" : tactic => `(tactic| first | trivial | (simp only [Term.ok, SigBase.ok, Term.Supported, Date0.early, SigBase.value, expValue]; decide))

set_option linter.unusedSimpArgs false in
/-- They are written as in the standard and belong to it. -/
theorem C87_examples_are : ∀ e ∈ standardExamples, e.2.text = e.1 ∧ e.2.ok := by
  simp only [standardExamples, List.forall_mem_cons]
  refine ⟨
    ⟨by decide +kernel, by std⟩,
    ⟨by decide +kernel, by std⟩,
    ⟨by decide +kernel, by std⟩,
    ⟨by decide +kernel, by std⟩,
    ⟨by decide +kernel, by std⟩,
    ⟨by decide +kernel, by std⟩,
    ⟨by decide +kernel, by std⟩,
    ⟨by decide +kernel, by std⟩,
    ⟨by decide +kernel, by std⟩,
    ⟨by decide +kernel, by std⟩,
    ⟨by decide +kernel, by std⟩,
    ⟨by decide +kernel, by std⟩,
    ⟨by decide +kernel, by std⟩,
    ⟨by decide +kernel, by std⟩,
    ⟨by decide +kernel, by std⟩,
    ⟨by decide +kernel, by std⟩,
    ⟨by decide +kernel, by std⟩,
    ⟨by decide +kernel, by std⟩,
    ⟨by decide +kernel, by std⟩,
    ⟨by decide +kernel, .decade 201 (by decide)⟩,
    ⟨by decide +kernel, .century 20 (by decide)⟩,
    ⟨by decide +kernel, .month 2004 (by decide)⟩,
    ⟨by decide +kernel, .day 1985 4 (by decide) (by decide) (by decide)⟩,
    ⟨by decide +kernel, .both 1985 (by decide)⟩,
    ⟨by decide +kernel, by simp only [Term.ok, Edge.ok, Edge.isDate]; refine ⟨?_, ?_, ?_⟩ <;> simp <;> decide⟩,
    ⟨by decide +kernel, by simp only [Term.ok, Edge.ok, Edge.isDate]; refine ⟨?_, ?_, ?_⟩ <;> simp <;> decide⟩,
    ⟨by decide +kernel, by simp only [Term.ok, Edge.ok, Edge.isDate]; refine ⟨?_, ?_, ?_⟩ <;> simp <;> decide⟩,
    ⟨by decide +kernel, by simp only [Term.ok, Edge.ok, Edge.isDate]; refine ⟨?_, ?_, ?_⟩ <;> simp <;> decide⟩,
    ⟨by decide +kernel, by simp only [Term.ok, Edge.ok, Edge.isDate]; refine ⟨?_, ?_, ?_⟩ <;> simp <;> decide⟩,
    ⟨by decide +kernel, by simp only [Term.ok, Edge.ok, Edge.isDate]; refine ⟨?_, ?_, ?_⟩ <;> simp <;> decide⟩,
    ⟨by decide +kernel, by simp only [Term.ok, Edge.ok, Edge.isDate]; refine ⟨?_, ?_, ?_⟩ <;> simp <;> decide⟩,
    ⟨by decide +kernel, by simp only [Term.ok, Edge.ok, Edge.isDate]; refine ⟨?_, ?_, ?_⟩ <;> simp <;> decide⟩,
    ⟨by decide +kernel, by simp only [Term.ok, Edge.ok, Edge.isDate]; refine ⟨?_, ?_, ?_⟩ <;> simp <;> decide⟩,
    ⟨by decide +kernel, by simp only [Term.ok, Edge.ok, Edge.isDate]; refine ⟨?_, ?_, ?_⟩ <;> simp <;> decide⟩,
    ⟨by decide +kernel, by simp only [Term.ok, Edge.ok, Edge.isDate]; refine ⟨?_, ?_, ?_⟩ <;> simp <;> decide⟩,
    ⟨by decide +kernel, by simp only [Term.ok, Edge.ok, Edge.isDate]; refine ⟨?_, ?_, ?_⟩ <;> simp <;> decide⟩,
    ⟨by decide +kernel, by std⟩,
    ⟨by decide +kernel, by std⟩,
    ⟨by decide +kernel, by std⟩,
    ⟨by decide +kernel, by std⟩,
    ⟨by decide +kernel, by std⟩,
    ⟨by decide +kernel, by std⟩,
    ⟨by decide +kernel, ⟨⟨by decide, by decide, by decide⟩, by simp only [List.forall_mem_cons, part_one, part_pair, part_upTo, part_onFrom, List.not_mem_nil, false_implies, implies_true]; decide⟩⟩,
    ⟨by decide +kernel, ⟨⟨by decide, by decide, by decide⟩, by simp only [List.forall_mem_cons, part_one, part_pair, part_upTo, part_onFrom, List.not_mem_nil, false_implies, implies_true]; decide⟩⟩,
    ⟨by decide +kernel, ⟨⟨by decide, by decide, by decide⟩, by simp only [List.forall_mem_cons, part_one, part_pair, part_upTo, part_onFrom, List.not_mem_nil, false_implies, implies_true]; decide⟩⟩,
    ⟨by decide +kernel, ⟨⟨by decide, by decide, by decide⟩, by simp only [List.forall_mem_cons, part_one, part_pair, part_upTo, part_onFrom, List.not_mem_nil, false_implies, implies_true]; decide⟩⟩,
    ⟨by decide +kernel, ⟨⟨by decide, by decide, by decide⟩, by simp only [List.forall_mem_cons, part_one, part_pair, part_upTo, part_onFrom, List.not_mem_nil, false_implies, implies_true]; decide⟩⟩,
    ⟨by decide +kernel, ⟨⟨by decide, by decide, by decide⟩, by simp only [List.forall_mem_cons, part_one, part_pair, part_upTo, part_onFrom, List.not_mem_nil, false_implies, implies_true]; decide⟩⟩,
    ⟨by decide +kernel, ⟨⟨by decide, by decide, by decide⟩, by simp only [List.forall_mem_cons, part_one, part_pair, part_upTo, part_onFrom, List.not_mem_nil, false_implies, implies_true]; decide⟩⟩,
    ⟨by decide +kernel, ⟨⟨by decide, by decide, by decide⟩, by simp only [List.forall_mem_cons, part_one, part_pair, part_upTo, part_onFrom, List.not_mem_nil, false_implies, implies_true]; decide⟩⟩,
    ⟨by decide +kernel, ⟨⟨by decide, by decide, by decide⟩, by simp only [List.forall_mem_cons, part_one, part_pair, part_upTo, part_onFrom, List.not_mem_nil, false_implies, implies_true]; decide⟩⟩,
    ⟨by decide +kernel, by std⟩,
    ⟨by decide +kernel, by std⟩,
    ⟨by decide +kernel, by std⟩,
    ⟨by decide +kernel, by std⟩,
    ⟨by decide +kernel, by std⟩,
    ⟨by decide +kernel, ⟨xdate_ok _ (by decide), rfl, by decide, reads_of _ 1560 12 25 (by decide)⟩⟩,
    ⟨by decide +kernel, ⟨xdate_ok _ (by decide), rfl, by decide, reads_of _ 1500 12 25 (by decide)⟩⟩,
    ⟨by decide +kernel, ⟨xdate_ok _ (by decide), rfl, by decide, reads_of _ 0 12 1 (by decide)⟩⟩,
    ⟨by decide +kernel, ⟨xdate_ok _ (by decide), rfl, by decide, reads_of _ 1000 1 1 (by decide)⟩⟩,
    ⟨by decide +kernel, ⟨xdate_ok _ (by decide), rfl, by decide, reads_of _ 1000 12 1 (by decide)⟩⟩,
    ⟨by decide +kernel, ⟨xdate_ok _ (by decide), rfl, by decide, reads_of _ 1984 10 1 (by decide)⟩⟩,
    ⟨by decide +kernel, ⟨⟨⟨xdate_ok _ (by decide), rfl, rfl, rfl, trivial⟩, rfl, reads_of _ 2004 6 1 (by decide)⟩, ⟨⟨xdate_ok _ (by decide), rfl, rfl, rfl, trivial⟩, rfl, reads_of _ 2004 6 20 (by decide)⟩, by decide⟩⟩,
    ⟨by decide +kernel, ⟨⟨⟨xdate_ok _ (by decide), rfl, rfl, rfl, trivial⟩, rfl, reads_of _ 2004 6 1 (by decide)⟩, ⟨⟨xdate_ok _ (by decide), rfl, rfl, rfl, trivial⟩, rfl, reads_of _ 2004 7 3 (by decide)⟩, by decide⟩⟩,
    fun _ he => absurd he List.not_mem_nil⟩

theorem std_yes {P Q : Prop} (h : Q) (p : P) : P ↔ Q := ⟨fun _ => h, fun _ => p⟩
theorem std_no {P Q : Prop} (h : ¬ Q) (p : ¬ P) : P ↔ Q := ⟨fun k => absurd k p, fun k => absurd k h⟩

set_option linter.unusedSimpArgs false in
/-- C87: of these examples all are read as the standard says, but the ones listed here. -/
theorem C87_examples (hf : DayCount f) : ∀ e ∈ standardExamples, (∃ d, parseString e.1 = .ok d ∧ e.2.Honoured f d) ↔
    e.1 ∉ [c! "Y170000002", c! "Y-170000002", c! "2004-06~", c! "2004-06-11%", c! "1985-04-12/..", c! "1985-04/..", c! "1985-04-12/", c! "1985-04/", c! "Y-17E7", c! "Y171010000S3", c! "Y3388E2S3", c! "XXXX-12-XX"] := by
  have key : ∀ e ∈ standardExamples, e.2.Supported ↔ e.1 ∉ [c! "Y170000002", c! "Y-170000002", c! "2004-06~", c! "2004-06-11%", c! "1985-04-12/..", c! "1985-04/..", c! "1985-04-12/", c! "1985-04/", c! "Y-17E7", c! "Y171010000S3", c! "Y3388E2S3", c! "XXXX-12-XX"] := by
    simp only [standardExamples, List.forall_mem_cons]
    refine ⟨
      std_yes (by decide) (by std),
      std_yes (by decide) (by std),
      std_yes (by decide) (by std),
      std_yes (by decide) (by std),
      std_yes (by decide) (by std),
      std_yes (by decide) (by std),
      std_yes (by decide) (by std),
      std_yes (by decide) (by std),
      std_yes (by decide) (by std),
      std_yes (by decide) (by std),
      std_yes (by decide) (by std),
      std_yes (by decide) (by std),
      std_yes (by decide) (by std),
      std_no (by decide) (by std),
      std_no (by decide) (by std),
      std_yes (by decide) (by std),
      std_yes (by decide) (by std),
      std_no (by decide) (by std),
      std_no (by decide) (by std),
      std_yes (by decide) (by std),
      std_yes (by decide) (by std),
      std_yes (by decide) (by std),
      std_yes (by decide) (by std),
      std_yes (by decide) (by std),
      std_no (by decide) (by std),
      std_no (by decide) (by std),
      std_yes (by decide) (by std),
      std_yes (by decide) (by std),
      std_yes (by decide) (by std),
      std_yes (by decide) (by std),
      std_no (by decide) (by std),
      std_no (by decide) (by std),
      std_yes (by decide) (by std),
      std_yes (by decide) (by std),
      std_yes (by decide) (by std),
      std_yes (by decide) (by std),
      std_yes (by decide) (by std),
      std_no (by decide) (by std),
      std_yes (by decide) (by std),
      std_no (by decide) (by std),
      std_no (by decide) (by std),
      std_yes (by decide) (by std),
      std_yes (by decide) (Or.inr ⟨rfl, fun b hb k => set_last _ b hb k (by decide)⟩),
      std_yes (by decide) (Or.inr ⟨rfl, fun b hb k => set_last _ b hb k (by decide)⟩),
      std_yes (by decide) (Or.inl ⟨rfl, rfl⟩),
      std_yes (by decide) (Or.inl ⟨rfl, rfl⟩),
      std_yes (by decide) (Or.inr ⟨rfl, fun b hb k => set_last _ b hb k (by decide)⟩),
      std_yes (by decide) (Or.inr ⟨rfl, fun b hb k => set_last _ b hb k (by decide)⟩),
      std_yes (by decide) (Or.inr ⟨rfl, fun b hb k => set_last _ b hb k (by decide)⟩),
      std_yes (by decide) (Or.inr ⟨rfl, fun b hb k => set_last _ b hb k (by decide)⟩),
      std_yes (by decide) (Or.inr ⟨rfl, fun b hb k => set_last _ b hb k (by decide)⟩),
      std_no (by decide) (by std),
      std_yes (by decide) (by std),
      std_yes (by decide) (by std),
      std_yes (by decide) (by std),
      std_yes (by decide) (by std),
      std_yes (by decide) (by simp only [Term.Supported]; rw [if_pos (by decide)]; exact understood_dec _ (by decide) (by decide)),
      std_yes (by decide) (by simp only [Term.Supported]; rw [if_pos (by decide)]; exact understood_dec _ (by decide) (by decide)),
      std_no (by decide) (fun k => (k.1 (by decide)).1 rfl),
      std_yes (by decide) (by simp only [Term.Supported]; rw [if_pos (by decide)]; exact understood_dec _ (by decide) (by decide)),
      std_yes (by decide) (by simp only [Term.Supported]; rw [if_pos (by decide)]; exact understood_dec _ (by decide) (by decide)),
      std_yes (by decide) (by simp only [Term.Supported]; rw [if_pos (by decide)]; exact understood_dec _ (by decide) (by decide)),
      std_yes (by decide) (⟨⟨by decide, understood_dec _ (by decide) (by decide)⟩, ⟨by decide, understood_dec _ (by decide) (by decide)⟩⟩),
      std_yes (by decide) (⟨⟨by decide, understood_dec _ (by decide) (by decide)⟩, ⟨by decide, understood_dec _ (by decide) (by decide)⟩⟩),
      fun _ he => absurd he List.not_mem_nil⟩
  intro e he
  obtain ⟨h1, h2⟩ := C87_examples_are e he
  rw [← key e he, ← C87_exact hf h2, h1]

/-! ### Features -/

/-- C87: the features of which every expression is read as the standard says: all three of
Level 0, two of the six of Level 1 and one of the eight of Level 2. -/
theorem C87_features (hf : DayCount f) (F : Feature) :
    (∀ t : Term, t.ok → t.feature = F → ∃ d, parseString t.text = .ok d ∧ t.Honoured f d) ↔
      F ∈ [.date, .dateAndTime, .timeInterval, .digitsFromRight, .negativeYear, .individualQualification] := by
  constructor
  · intro h
    have bad : ∀ t : Term, t.ok → ¬ t.Supported → t.feature ≠ F := fun t ht hs hF => hs ((C87_exact hf ht).1 (h t ht hF))
    have listed : ∀ e ∈ standardExamples, ¬ e.2.Supported → e.2.feature ≠ F := fun e he => bad e.2 (C87_examples_are e he).2
    cases F with
    | date | dateAndTime | timeInterval | digitsFromRight | negativeYear | individualQualification => decide
    | letterPrefixed => exact absurd rfl (bad (.letter false [1, 0, 0, 0, 0]) (by std) (by std))
    | seasons => exact absurd rfl (bad (.season 9999 .winter) (by std) (by std))
    | qualification => exact absurd rfl (bad (.qualified ⟨false, 2004, .month 6⟩ '~') (by std) (by std))
    | extendedInterval =>
      exact absurd rfl (bad (.extended (.date ⟨false, 1985, .month 4⟩ none) .opened)
        (by simp only [Term.ok, Edge.ok, Edge.isDate]; refine ⟨?_, ?_, ?_⟩ <;> simp <;> decide) (by std))
    | exponentialYear => exact absurd rfl (bad (.exponential true [1, 7] [7]) (by std) (by std))
    | significantDigits => exact absurd rfl (bad (.significant (.four 1950) [3]) (by std) (by std))
    | subYear => exact absurd rfl (bad (.grouping 9999 (.north .winter)) (by std) (by std))
    | set =>
      refine absurd rfl (bad (.set true [.one ⟨false, 2004, .none⟩, .one ⟨false, 2004, .month 6⟩])
        ⟨⟨by decide, by decide, by decide⟩, by simp only [List.forall_mem_cons, part_one, List.not_mem_nil, false_implies, implies_true]; decide⟩ ?_)
      rintro (⟨k, -⟩ | ⟨-, k⟩)
      · cases k
      · have := k ⟨false, 2004, .month 6⟩ (by decide) (fun x hx => textLe_iff.2 ((by decide :
          ∀ x ∈ members [.one ⟨false, 2004, .none⟩, .one ⟨false, 2004, .month 6⟩], strLe x.text (⟨false, 2004, .month 6⟩ : Date0).text = true) x hx))
          ⟨false, 2004, .none⟩ (by decide)
        exact absurd this (by decide)
    | groupQualification => exact absurd rfl (bad (.group ⟨false, 2004, .day 6 11⟩ none none (some '%')) (by std) (by std))
    | unspecifiedDigit =>
      exact absurd rfl (bad (.digits ⟨false, c! "1X84", .none⟩) ⟨xdate_ok _ (by decide), rfl, by decide, reads_of _ 1084 1 1 (by decide)⟩
        (fun k => absurd (k.1 (by decide)).2 (by decide)))
    | interval =>
      exact absurd rfl (bad (.portions ⟨⟨false, c! "2004", .none⟩, .right '?', .none, .none⟩ ⟨⟨false, c! "2005", .none⟩, .none, .none, .none⟩)
        ⟨⟨⟨xdate_ok _ (by decide), rfl, rfl, rfl, rfl, rfl⟩, rfl, reads_of _ 2004 1 1 (by decide)⟩,
          ⟨⟨xdate_ok _ (by decide), rfl, rfl, rfl, rfl, rfl⟩, rfl, reads_of _ 2005 1 1 (by decide)⟩, by decide⟩
        (fun k => absurd k.1.1 (by decide)))
  · intro h t ht hF
    subst hF
    rw [C87_exact hf ht]
    cases t <;> first | trivial | exact absurd h (by decide)

/-- C87: README.md says that Level 1 and Level 2 are supported; they are not. -/
theorem C87_negation (hf : DayCount f) (l : Nat) (h1 : l = 1 ∨ l = 2) :
    ¬ ∀ t : Term, t.ok → t.feature.level = l → ∃ d, parseString t.text = .ok d ∧ t.Honoured f d := by
  intro h
  rcases h1 with rfl | rfl
  · exact absurd ((C87_features hf .letterPrefixed).1 fun t ht hF => h t ht (by rw [hF]; rfl)) (by decide)
  · exact absurd ((C87_features hf .exponentialYear).1 fun t ht hF => h t ht (by rw [hF]; rfl)) (by decide)

/-! ### Instances -/

/-- Read, but with another meaning: one significant digit of 1950 is 1000 to 1999, and the
record is 1950 to 1959. -/
example (hf : DayCount f) : ∃ d, parseString (c! "1950S1") = .ok d ∧ ¬ (Term.significant (.four 1950) [1]).Honoured f d :=
  (C87_wrong (t := .significant (.four 1950) [1]) hf (by std)).2 ⟨by show 1 ≤ 4; omega, by std⟩

/-- A panic. -/
example : parseString (c! "1950S7") = .panic := (C87_panics (t := .significant (.four 1950) [7]) (by std)).2 ⟨by decide, by decide⟩

/-- Level 0. -/
example (hf : DayCount f) : ∃ d, parseString (c! "2004-02-29/2005-02") = .ok d ∧ (Term.interval ⟨false, 2004, .day 2 29⟩ ⟨false, 2005, .month 2⟩).Honoured f d :=
  C87_level0 (t := .interval ⟨false, 2004, .day 2 29⟩ ⟨false, 2005, .month 2⟩) hf (by std) rfl

/-- Level 2, supported and not. -/
example (hf : DayCount f) : ∃ d, parseString (c! "19XX-02-1X") = .ok d ∧ (Term.digits ⟨false, c! "19XX", .day (c! "02") (c! "1X")⟩).Honoured f d :=
  (C87_exact (t := .digits ⟨false, c! "19XX", .day (c! "02") (c! "1X")⟩) hf
    ⟨xdate_ok _ (by decide), rfl, by decide, reads_of _ 1900 2 10 (by decide)⟩).2
    (by simp only [Term.Supported]; rw [if_pos (by decide)]; exact ⟨by decide, by decide, by decide, fun _ k => by revert k; decide⟩)
example : ¬ ∃ d, parseString (c! "19XX-02-29") = .ok d := by
  rw [show c! "19XX-02-29" = (Term.digits ⟨false, c! "19XX", .day (c! "02") (c! "29")⟩).text from rfl]
  have hok : (Term.digits ⟨false, c! "19XX", .day (c! "02") (c! "29")⟩).ok := ⟨xdate_ok _ (by decide), rfl, by decide, reads_of _ 1904 2 29 (by decide)⟩
  intro ⟨d, hd⟩
  have ht := (C87_taken hok).1 ⟨d, hd⟩
  have hu := (understood_iff hok.1 hok.2.1 hok.2.2.2).2 ⟨by decide, ht (by decide)⟩
  exact absurd (hu.2.2.2 rfl (Or.inl rfl)).1 (by decide)

end EDTF
