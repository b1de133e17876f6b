/- C42: encoding a date to JSON and decoding it. -/
import Verif.LemmasJson
import Verif.PropsWf
import Verif.PropsMisc
namespace EDTF
open Spec

namespace Spec

/-- A 64-bit integer. -/
def Int64 (n : Int) : Prop := -2 ^ 63 ≤ n ∧ n < 2 ^ 63

def FitsYMD (y : YMD) : Prop := Int64 y.year ∧ Int64 y.month ∧ Int64 y.day

def FitsDate (d : Date) : Prop := (∀ t, d.timestamp = some t → Int64 t) ∧ (∀ y, d.ymd = some y → FitsYMD y)

def FitsRange (r : DateRange) : Prop := (∀ b, r.lower = some b → FitsDate b) ∧ (∀ b, r.upper = some b → FitsDate b)

/-- Every integer in the date is a 64-bit integer, as it is in a Go value. -/
def Fits64 (d : EDTFDate) : Prop :=
  (∀ r, d.start = some r → FitsRange r) ∧ (∀ r, d.stop = some r → FitsRange r) ∧ Int64 d.level

/-- The members of an object. -/
def jmembers : JV → List (Str × JV)
  | .obj ms => ms.map (fun m => (m.1.2, m.2))
  | _ => []

/-- The JSON text of a boundary at a second of a day, without flags but with a precision.
The four numbers are given as texts. -/
def boundaryText (y : Int) (m d hh mi ss : Nat) (ts yy mm dd pp : Str) : Str :=
  c! "{\"datetime\":\"" ++ rfcText y m d hh mi ss ++ c! "\",\"timestamp\":" ++ ts ++
  c! ",\"ymd\":{\"year\":" ++ yy ++ c! ",\"month\":" ++ mm ++ c! ",\"day\":" ++ dd ++
  c! "},\"precision\":" ++ pp ++ c! "}"

end Spec

variable {f : Int → Nat → Nat → Int}

/-! ### Decoding what was encoded -/

theorem readMembers_append {α : Type} {f : α → Str → JV → Option α} (a : α) (xs ys : List ((Str × Str) × JV)) :
    readMembers f a (xs ++ ys) = (readMembers f a xs).bind (fun b => readMembers f b ys) := by
  induction xs generalizing a with
  | nil => rfl
  | cons x xs ih =>
    obtain ⟨k, v⟩ := x
    show (f a k.2 v).bind (fun b => readMembers f b (xs ++ ys)) = ((f a k.2 v).bind (fun b => readMembers f b xs)).bind _
    cases f a k.2 v with
    | none => rfl
    | some b => exact ih b

theorem readMembers_one {α : Type} {f : α → Str → JV → Option α} (a : α) (n : Str) (v : JV) :
    readMembers f a (field n v) = f a n v := by
  show (f a n v).bind (fun b => some b) = _
  cases f a n v <;> rfl

theorem readInt_ofInt {old n : Int} (h1 : -2 ^ 63 ≤ n) (h2 : n < 2 ^ 63) : readInt old (.ofInt n) = some n :=
  parseInt_itoa n h1 h2

theorem natDigits_ne (n : Nat) : natDigits n ≠ [] := by
  rcases natDigits_head n with ⟨_, e⟩ | ⟨c, s, e, _⟩ <;> (rw [e]; simp)

theorem readPrec_ofInt (old p : Prec) : readPrec old (.ofInt p.toNat) = some p := by
  show (if (itoa _) ≠ [] ∧ (itoa _).all isDig ∧ digitsVal (itoa _) < 2 ^ 32 then some (BitVec.ofNat 32 (digitsVal (itoa _))) else none) = _
  have e : itoa (p.toNat : Int) = natDigits p.toNat := by
    unfold itoa; rw [if_neg (by omega), Int.natAbs_natCast]
  rw [e, digitsVal_natDigits, if_pos ⟨natDigits_ne _, natDigits_all _, p.isLt⟩]
  simp

theorem readPtr_ofPtr {α : Type} {z : α} {r : α → JV → Option α} {w : α → JV} (hn : ∀ a, w a ≠ .null)
    (o : Option α) (h : ∀ a, o = some a → r z (w a) = some a) : readPtr z r none (ofPtr w o) = some o := by
  cases o with
  | none => rfl
  | some a =>
    show readPtr z r none (w a) = _
    have e : readPtr z r none (w a) = (r z (w a)).map some := by
      have := hn a
      revert this
      generalize w a = x
      intro hx
      cases x <;> first | exact absurd rfl hx | rfl
    rw [e, h a rfl]; rfl

theorem ymd_round {y : YMD} (h : Spec.FitsYMD y) (z : YMD) : YMD.ofJson z y.toJson = some y := by
  obtain ⟨yy, mm, dd⟩ := y
  obtain ⟨⟨a, a'⟩, ⟨b, b'⟩, ⟨c, c'⟩⟩ := h
  show readMembers YMD.readField z _ = _
  rw [readMembers_append, readMembers_append, readMembers_one]
  have e1 : YMD.readField z (c! "year") (.ofInt yy) = some { z with year := yy } := by
    show (readInt z.year (.ofInt yy)).map _ = _
    rw [readInt_ofInt a a']; rfl
  rw [e1, Option.bind_some, readMembers_one]
  have e2 : YMD.readField { z with year := yy } (c! "month") (.ofInt mm) = some { z with year := yy, month := mm } := by
    show (readInt _ (.ofInt mm)).map _ = _
    rw [readInt_ofInt b b']; rfl
  rw [e2, Option.bind_some, readMembers_one]
  show (readInt _ (.ofInt dd)).map _ = _
  rw [readInt_ofInt c c']; rfl

theorem date_flag {D : Date} {n : Str} {p : Prec} {old : Prec} {up : Date → Prec → Date}
    (h : ∀ v, Date.readField D n v = (readPrec old v).map (up D)) (h0 : up D 0 = D) :
    readMembers Date.readField D (fieldOmit n (p == 0) (.ofInt p.toNat)) = some (up D p) := by
  unfold fieldOmit
  by_cases hp : p = 0
  · subst hp; rw [if_pos (by simp), h0]; rfl
  · rw [if_neg (by simpa using hp), readMembers_one, h, readPrec_ofInt]; rfl

theorem date_bool {D : Date} {n : Str} {b old : Bool} {up : Date → Bool → Date}
    (h : ∀ v, Date.readField D n v = (readBool old v).map (up D)) (h0 : up D false = D) :
    readMembers Date.readField D (fieldOmit n (!b) (.bool b)) = some (up D b) := by
  cases b
  · show some D = _; rw [h0]
  · show readMembers Date.readField D (field n (.bool true)) = _
    rw [readMembers_one, h]; rfl

theorem date_round {d : Date} (h : Spec.FitsDate d) : Date.ofJson {} d.toJson = some d := by
  obtain ⟨dt, ts, y, un, ap, us, pr, op, uk, inc⟩ := d
  obtain ⟨ht, hy⟩ := h
  simp only at ht hy
  show readMembers Date.readField {} _ = _
  simp only [readMembers_append]
  have e1 : readMembers Date.readField {} (fieldOmit (c! "datetime") dt.isEmpty (.ofStr dt)) = some { dateTime := dt } := by
    cases dt <;> rfl
  have e2 : readMembers Date.readField { dateTime := dt } (fieldOmit (c! "timestamp") ts.isNone (ofPtr (fun t => .num (marshalTimestamp t)) ts)) =
      some { dateTime := dt, timestamp := ts } := by
    cases ts with
    | none => rfl
    | some t =>
      have hr := (C45_roundtrip (ht t rfl).1 (ht t rfl).2).2.1
      show readMembers Date.readField _ (field _ (.num (marshalTimestamp t))) = _
      rw [readMembers_one]
      show ((match unmarshalTimestamp (marshalTimestamp t) with | .ok t => some t | _ => none).map some).map _ = _
      rw [hr]; rfl
  have e3 : readMembers Date.readField { dateTime := dt, timestamp := ts } (field (c! "ymd") (ofPtr YMD.toJson y)) =
      some { dateTime := dt, timestamp := ts, ymd := y } := by
    rw [readMembers_one]
    show (readPtr _ YMD.ofJson none (ofPtr YMD.toJson y)).map _ = _
    rw [readPtr_ofPtr (fun _ => by intro h; cases h) y (fun a ha => ymd_round (hy a ha) _)]; rfl
  rw [e1, Option.bind_some, e2, Option.bind_some, e3, Option.bind_some,
    date_flag (up := fun D p => { D with uncertain := p }) (fun _ => rfl) rfl, Option.bind_some,
    date_flag (up := fun D p => { D with approximate := p }) (fun _ => rfl) rfl, Option.bind_some,
    date_flag (up := fun D p => { D with unspecified := p }) (fun _ => rfl) rfl, Option.bind_some,
    date_flag (up := fun D p => { D with precision := p }) (fun _ => rfl) rfl, Option.bind_some,
    date_bool (up := fun D p => { D with isOpen := p }) (fun _ => rfl) rfl, Option.bind_some,
    date_bool (up := fun D p => { D with unknown := p }) (fun _ => rfl) rfl, Option.bind_some,
    date_flag (up := fun D p => { D with inclusivity := p }) (fun _ => rfl) rfl]

theorem range_round {r : DateRange} (h : Spec.FitsRange r) : DateRange.ofJson {} r.toJson = some r := by
  obtain ⟨e, l, u⟩ := r
  obtain ⟨hl, hu⟩ := h
  simp only at hl hu
  show readMembers DateRange.readField {} _ = _
  rw [readMembers_append, readMembers_append, readMembers_one]
  have e1 : DateRange.readField {} (c! "edtf") (.ofStr e) = some { edtf := e } := rfl
  rw [e1, Option.bind_some, readMembers_one]
  have e2 : DateRange.readField { edtf := e } (c! "lower") (ofPtr Date.toJson l) = some { edtf := e, lower := l } := by
    show (readPtr _ Date.ofJson none (ofPtr Date.toJson l)).map _ = _
    rw [readPtr_ofPtr (fun _ => by intro h; cases h) l (fun a ha => date_round (hl a ha))]; rfl
  rw [e2, Option.bind_some, readMembers_one]
  show (readPtr _ Date.ofJson none (ofPtr Date.toJson u)).map _ = _
  rw [readPtr_ofPtr (fun _ => by intro h; cases h) u (fun a ha => date_round (hu a ha))]; rfl

theorem edtf_round {d : EDTFDate} (h : Spec.Fits64 d) : EDTFDate.ofJson ⟨none, none, [], 0, []⟩ d.toJson = some d := by
  obtain ⟨st, en, e, l, ft⟩ := d
  obtain ⟨hs, he, h1, h2⟩ := h
  simp only at hs he h1 h2
  show readMembers EDTFDate.readField _ _ = _
  simp only [readMembers_append, readMembers_one]
  have e1 : EDTFDate.readField ⟨none, none, [], 0, []⟩ (c! "start") (ofPtr DateRange.toJson st) = some ⟨st, none, [], 0, []⟩ := by
    show (readPtr _ DateRange.ofJson none (ofPtr DateRange.toJson st)).map _ = _
    rw [readPtr_ofPtr (fun _ => by intro h; cases h) st (fun a ha => range_round (hs a ha))]; rfl
  have e2 : EDTFDate.readField ⟨st, none, [], 0, []⟩ (c! "end") (ofPtr DateRange.toJson en) = some ⟨st, en, [], 0, []⟩ := by
    show (readPtr _ DateRange.ofJson none (ofPtr DateRange.toJson en)).map _ = _
    rw [readPtr_ofPtr (fun _ => by intro h; cases h) en (fun a ha => range_round (he a ha))]; rfl
  have e3 : EDTFDate.readField ⟨st, en, [], 0, []⟩ (c! "edtf") (.ofStr e) = some ⟨st, en, e, 0, []⟩ := rfl
  have e4 : EDTFDate.readField ⟨st, en, e, 0, []⟩ (c! "level") (.ofInt l) = some ⟨st, en, e, l, []⟩ := by
    show (readInt _ (.ofInt l)).map _ = _
    rw [readInt_ofInt h1 h2]; rfl
  rw [e1, Option.bind_some, e2, Option.bind_some, e3, Option.bind_some, e4, Option.bind_some]
  rfl

/-! ### The documents are well-formed -/

theorem wf_append {xs ys : List ((Str × Str) × JV)} (h1 : JV.WfMembers xs) (h2 : JV.WfMembers ys) : JV.WfMembers (xs ++ ys) := by
  induction xs with
  | nil => exact h2
  | cons x xs ih =>
    obtain ⟨k, v⟩ := x
    rw [JV.WfMembers] at h1
    show JV.WfMembers ((k, v) :: (xs ++ ys))
    rw [JV.WfMembers]
    exact ⟨h1.1, h1.2.1, ih h1.2.2⟩

theorem wf_field {n : Str} {v : JV} (hn : n = escStr n) (h : v.Wf) : JV.WfMembers (field n v) := by
  show JV.WfMembers [((n, n), v)]
  rw [JV.WfMembers, JV.WfMembers]
  exact ⟨hn, h, trivial⟩

theorem wf_omit {n : Str} {e : Bool} {v : JV} (hn : n = escStr n) (h : e = false → v.Wf) : JV.WfMembers (fieldOmit n e v) := by
  cases e
  · exact wf_field hn (h rfl)
  · show JV.WfMembers []; rw [JV.WfMembers]; trivial

theorem wf_ptr {α : Type} {w : α → JV} (h : ∀ a, (w a).Wf) (o : Option α) : (ofPtr w o).Wf := by
  cases o with
  | none => show JV.null.Wf; rw [JV.Wf]; trivial
  | some a => exact h a

theorem wf_int (n : Int) : (JV.ofInt n).Wf := by
  show (JV.num _).Wf; rw [JV.Wf]; exact ⟨n, rfl⟩
theorem wf_str (s : Str) : (JV.ofStr s).Wf := by
  show (JV.str _ _).Wf; rw [JV.Wf]
theorem wf_bool (b : Bool) : (JV.bool b).Wf := by rw [JV.Wf]; trivial

theorem wf_obj {ms : List ((Str × Str) × JV)} (h : JV.WfMembers ms) : (JV.obj ms).Wf := by rw [JV.Wf]; exact h

theorem wf_ymd (y : YMD) : y.toJson.Wf :=
  wf_obj (wf_append (wf_append (wf_field rfl (wf_int _)) (wf_field rfl (wf_int _))) (wf_field rfl (wf_int _)))

theorem wf_date (d : Date) : d.toJson.Wf := by
  refine wf_obj (wf_append (wf_append (wf_append (wf_append (wf_append (wf_append (wf_append (wf_append (wf_append
    (wf_omit rfl (fun _ => wf_str _)) (wf_omit rfl (fun _ => wf_ptr (fun t => ?_) _))) (wf_field rfl (wf_ptr wf_ymd _)))
    (wf_omit rfl (fun _ => wf_int _))) (wf_omit rfl (fun _ => wf_int _))) (wf_omit rfl (fun _ => wf_int _)))
    (wf_omit rfl (fun _ => wf_int _))) (wf_omit rfl (fun _ => wf_bool _))) (wf_omit rfl (fun _ => wf_bool _)))
    (wf_omit rfl (fun _ => wf_int _)))
  exact wf_int t

theorem wf_range (r : DateRange) : r.toJson.Wf :=
  wf_obj (wf_append (wf_append (wf_field rfl (wf_str _)) (wf_field rfl (wf_ptr wf_date _))) (wf_field rfl (wf_ptr wf_date _)))

theorem wf_edtf (d : EDTFDate) : d.toJson.Wf :=
  wf_obj (wf_append (wf_append (wf_append (wf_append (wf_field rfl (wf_ptr wf_range _)) (wf_field rfl (wf_ptr wf_range _)))
    (wf_field rfl (wf_str _))) (wf_field rfl (wf_int _))) (wf_field rfl (wf_str _)))

/-! ### C42 -/

/-- C42, every field value: encoding and decoding gives the same date back, whatever its
fields hold, as long as its integers are 64-bit integers. -/
theorem C42_roundtrip {d : EDTFDate} (h : Spec.Fits64 d) : EDTFDate.unmarshal d.marshal = some d := by
  unfold EDTFDate.unmarshal EDTFDate.marshal
  rw [readJson_text (wf_edtf d) (by have := depth_edtf d; omega)]
  exact edtf_round h

example : EDTFDate.unmarshal (⟨none, some { edtf := c! "a\"<é", upper := some { timestamp := some (-1), uncertain := 5 } }, c! "x", -7, []⟩ : EDTFDate).marshal =
    some ⟨none, some { edtf := c! "a\"<é", upper := some { timestamp := some (-1), uncertain := 5 } }, c! "x", -7, []⟩ := by decide +kernel

theorem fits_of_boundary {b : Date} (h : Boundary U b) : Spec.FitsDate b := by
  have dy : ∀ {y : Int} {m d : Nat}, Valid y m d → -10000 ≤ y → y ≤ 10000 → -5000000 ≤ U y m d ∧ U y m d ≤ 5000000 := by
    intro y m d V h1 h2
    have Vl : Valid (-10000) 1 1 := by decide
    have Vh : Valid 10000 12 31 := by decide
    have V' := V
    unfold Valid at V'
    have a := day_order dayCount_unixDay Vl V (by unfold dayLe; omega)
    have b := day_order dayCount_unixDay V Vh (by unfold dayLe; have := monthLen_le y m; omega)
    have a1 : -5000000 ≤ U (-10000) 1 1 := by decide +kernel
    have b1 : U 10000 12 31 ≤ 5000000 := by decide +kernel
    exact ⟨Int.le_trans a1 a, Int.le_trans b b1⟩
  rcases h with ⟨-, -, y, m, d, hh, mi, ss, V, h1, h2, h3, h4, h5, -, ht, hy⟩ | ⟨-, -, -, ht, hy⟩ | ⟨-, -, -, ht, hy⟩
  · have := dy V h4 h5
    constructor
    · intro t e
      rw [ht] at e
      injection e with e
      unfold Spec.Int64; omega
    · intro v e
      rcases hy with hy | hy
      · rw [hy] at e; cases e
      · rw [hy] at e
        injection e with e
        subst e
        unfold Valid at V
        have := monthLen_le y m
        refine ⟨?_, ?_, ?_⟩ <;> (unfold Spec.Int64; simp only; omega)
  all_goals
    constructor
    · intro t e; rw [ht] at e; cases e
    · intro t e; rw [hy] at e; cases e

/-- C42 for parsed dates: if a string parses, the date it gives is recovered from its
JSON text. -/
theorem C42_parsed {s : Str} {d : EDTFDate} (h : parseString s = .ok d) : EDTFDate.unmarshal d.marshal = some d := by
  apply C42_roundtrip
  obtain ⟨es, ee, sl, su, el, eu, h1, h2, b1, b2, b3, b4⟩ := C31_wellformed dayCount_unixDay h
  refine ⟨?_, ?_, ?_⟩
  · intro r hr
    rw [h1] at hr
    injection hr with hr
    subst hr
    exact ⟨fun b e => by injection e with e; subst e; exact fits_of_boundary b1, fun b e => by injection e with e; subst e; exact fits_of_boundary b2⟩
  · intro r hr
    rw [h2] at hr
    injection hr with hr
    subst hr
    exact ⟨fun b e => by injection e with e; subst e; exact fits_of_boundary b3, fun b e => by injection e with e; subst e; exact fits_of_boundary b4⟩
  · have : d.level = -1 ∨ d.level = 0 ∨ d.level = 1 ∨ d.level = 2 := by
      rcases (parse_inv h).2.2 with h | h
      · exact .inl h.1
      · exact .inr h.2
    unfold Spec.Int64; omega

/-- Dates with unusual fields: an instant (no calendar date), an open end, a set. -/
example : (∃ d, parseString (c! "1985-04-12T23:20:30Z") = .ok d) ∧ (∃ d, parseString (c! "../1985-04") = .ok d) ∧
    (∃ d, parseString (c! "[..1984-06]") = .ok d) := ⟨⟨_, rfl⟩, ⟨_, rfl⟩, ⟨_, rfl⟩⟩

/-- C42, distinct dates have distinct texts. -/
theorem C42_injective {d e : EDTFDate} (hd : Spec.Fits64 d) (he : Spec.Fits64 e) (h : d.marshal = e.marshal) : d = e := by
  have a := C42_roundtrip hd
  rw [h, C42_roundtrip he] at a
  exact (Option.some.inj a).symm

example : ∃ d e, parseString (c! "1985") = .ok d ∧ parseString (c! "1985-04") = .ok e ∧ d.marshal ≠ e.marshal := ⟨_, _, rfl, rfl, by decide +kernel⟩

theorem mem_field {k n : Str} {v w : JV} : (k, v) ∈ (field n w).map (fun m => (m.1.2, m.2)) ↔ k = n ∧ v = w := by
  simp [field]

theorem mem_omit {k n : Str} {e : Bool} {v w : JV} :
    (k, v) ∈ (fieldOmit n e w).map (fun m => (m.1.2, m.2)) ↔ e = false ∧ k = n ∧ v = w := by
  cases e <;> simp [fieldOmit, field]

/-- C42, the timestamp: the document of a boundary has a member "timestamp" exactly when
there is a timestamp, and then it is the number itself, zero included. -/
theorem C42_timestamp (d : Date) (v : JV) :
    (c! "timestamp", v) ∈ jmembers d.toJson ↔ ∃ t, d.timestamp = some t ∧ v = .num (itoa t) := by
  unfold Date.toJson jmembers
  simp only [List.map_append, List.mem_append, mem_omit, mem_field]
  constructor
  · intro h
    have h : d.timestamp.isNone = false ∧ v = ofPtr (fun t => .num (marshalTimestamp t)) d.timestamp := by
      simpa using h
    obtain ⟨h1, h2⟩ := h
    cases ht : d.timestamp with
    | none => rw [ht] at h1; cases h1
    | some t => rw [ht] at h2; exact ⟨t, rfl, h2⟩
  · rintro ⟨t, ht, rfl⟩
    simp [ht, ofPtr, marshalTimestamp]

/-- The beginning of 1970 has the timestamp zero, an open date has none. -/
example : ((c! "timestamp", JV.num (c! "0")) ∈ jmembers (dayStart U 1970 1 1 0 0 64).toJson) ∧
    ∀ v, (c! "timestamp", v) ∉ jmembers openEnd.toJson :=
  ⟨(C42_timestamp _ _).2 ⟨0, by decide +kernel, rfl⟩, fun v h => by
    obtain ⟨t, h, -⟩ := (C42_timestamp _ _).1 h; cases h⟩

/-! ### The text itself -/

theorem escStr_append (a b : Str) : escStr (a ++ b) = escStr a ++ escStr b := by
  induction a with
  | nil => rfl
  | cons c a ih => show escChar c ++ escStr (a ++ b) = (escChar c ++ escStr a) ++ escStr b; rw [ih, List.append_assoc]

theorem escStr_plain {s : Str} (h : ∀ c ∈ s, escChar c = [c]) : escStr s = s := by
  induction s with
  | nil => rfl
  | cons c s ih =>
    show escChar c ++ escStr s = _
    rw [ih (fun d hd => h d (List.mem_cons_of_mem _ hd)), h c List.mem_cons_self]; rfl

theorem escChar_dig (n : Nat) : escChar (dig n) = [dig n] := by
  by_cases h : n < 10
  · exact (by decide : ∀ n < 10, escChar (dig n) = [dig n]) n h
  · have e : dig n = '?' := by unfold dig; rw [List.getD_eq_getElem?_getD, List.getElem?_eq_none (by simp; omega)]; rfl
    rw [e]; rfl

theorem escStr_rfc (y : Int) (m d hh mi ss : Nat) : escStr (rfcText y m d hh mi ss) = rfcText y m d hh mi ss := by
  apply escStr_plain
  have p2 : ∀ n, ∀ c ∈ pad2 n, escChar c = [c] := by
    intro n c h
    simp only [pad2, List.mem_cons, List.not_mem_nil, or_false] at h
    rcases h with h | h <;> (rw [h]; exact escChar_dig _)
  have p4 : ∀ n, ∀ c ∈ pad4 n, escChar c = [c] := by
    intro n c h
    simp only [pad4, List.mem_cons, List.not_mem_nil, or_false] at h
    rcases h with h | h | h | h <;> (rw [h]; exact escChar_dig _)
  have py : ∀ n, ∀ c ∈ yearDigits n, escChar c = [c] := by
    intro n c h
    unfold yearDigits at h
    split at h
    · exact p4 _ _ h
    · rcases List.mem_cons.1 h with h | h
      · rw [h]; exact escChar_dig _
      · exact p4 _ _ h
  have pt : ∀ c ∈ yearText y, escChar c = [c] := by
    intro c h
    unfold yearText at h
    split at h
    · rcases List.mem_cons.1 h with h | h
      · rw [h]; rfl
      · exact py _ _ h
    · exact py _ _ h
  intro c h
  unfold rfcText hmsText at h
  simp only [List.mem_append, List.mem_cons, List.not_mem_nil, or_false] at h
  rcases h with ((((((h | h) | h) | h) | h) | h) | ((((h | h) | h) | h) | h)) | h
  all_goals first
    | exact pt _ h
    | exact p2 _ _ h
    | (rw [h]; rfl)

/-- C42, the text of a dated boundary, field by field: the names, their order, and what
is left out. -/
theorem C42_boundary_text (y : Int) (m d hh mi ss : Nat) {p : Prec} (hp : p ≠ 0) :
    (dated f y m d hh mi ss 0 0 p).toJson.text =
      boundaryText y m d hh mi ss (itoa (86400 * f y m d + (3600 * hh + 60 * mi + ss : Nat))) (itoa y) (itoa m) (itoa d) (itoa p.toNat) := by
  have e : (dated f y m d hh mi ss 0 0 p).toJson =
      .obj [((c! "datetime", c! "datetime"), .ofStr (rfcText y m d hh mi ss)),
        ((c! "timestamp", c! "timestamp"), .ofInt (86400 * f y m d + (3600 * hh + 60 * mi + ss : Nat))),
        ((c! "ymd", c! "ymd"), .obj [((c! "year", c! "year"), .ofInt y), ((c! "month", c! "month"), .ofInt m), ((c! "day", c! "day"), .ofInt d)]),
        ((c! "precision", c! "precision"), .ofInt p.toNat)] := by
    have hd : (rfcText y m d hh mi ss).isEmpty = false := by
      rw [List.isEmpty_eq_false_iff]
      unfold rfcText
      simp
    have hq : (p == 0) = false := by simpa using hp
    unfold Date.toJson dated
    simp only [fieldOmit, hd, hq]
    rfl
  rw [e]
  simp only [JV.text, JV.textMembers, JV.ofStr, JV.ofInt, escStr_rfc, boundaryText, List.append_assoc, List.cons_append, List.nil_append]

example : (dayStart U 1970 1 1 0 0 Prec.YEAR).toJson.text =
    c! "{\"datetime\":\"1970-01-01T00:00:00Z\",\"timestamp\":0,\"ymd\":{\"year\":1970,\"month\":1,\"day\":1},\"precision\":64}" := by
  decide +kernel

/-- C42, the text of an open and of an unknown boundary. -/
theorem C42_undated_text :
    openEnd.toJson.text = c! "{\"ymd\":null,\"open\":true}" ∧ unknownEnd.toJson.text = c! "{\"ymd\":null,\"unknown\":true}" := ⟨rfl, rfl⟩

/-- C42, the text of a whole date around its two ranges, when the texts in it contain
no character that must be escaped (as those that parse do not). -/
theorem C42_document_text {a b : DateRange} {e ft : Str} {l : Int} (he : escStr e = e) (hf : escStr ft = ft) :
    (⟨some a, some b, e, l, ft⟩ : EDTFDate).marshal =
      c! "{\"start\":" ++ a.toJson.text ++ c! ",\"end\":" ++ b.toJson.text ++ c! ",\"edtf\":\"" ++ e ++ c! "\",\"level\":" ++ itoa l ++
        c! ",\"feature\":\"" ++ ft ++ c! "\"}" := by
  have h : (⟨some a, some b, e, l, ft⟩ : EDTFDate).toJson =
      .obj [((c! "start", c! "start"), a.toJson), ((c! "end", c! "end"), b.toJson), ((c! "edtf", c! "edtf"), .ofStr e),
        ((c! "level", c! "level"), .ofInt l), ((c! "feature", c! "feature"), .ofStr ft)] := rfl
  unfold EDTFDate.marshal
  rw [h]
  simp only [JV.text, JV.textMembers, JV.ofStr, JV.ofInt, he, hf, List.append_assoc, List.cons_append, List.nil_append]

example : escStr (c! "2004-06-~01/2004-06-~20") = c! "2004-06-~01/2004-06-~20" ∧ escStr (c! "Interval") = c! "Interval" := ⟨rfl, rfl⟩

/-- C42, the text of a range. -/
theorem C42_range_text {a b : Date} {e : Str} (he : escStr e = e) :
    (⟨e, some a, some b⟩ : DateRange).toJson.text =
      c! "{\"edtf\":\"" ++ e ++ c! "\",\"lower\":" ++ a.toJson.text ++ c! ",\"upper\":" ++ b.toJson.text ++ c! "}" := by
  have h : (⟨e, some a, some b⟩ : DateRange).toJson =
      .obj [((c! "edtf", c! "edtf"), .ofStr e), ((c! "lower", c! "lower"), a.toJson), ((c! "upper", c! "upper"), b.toJson)] := rfl
  rw [h]
  simp only [JV.text, JV.textMembers, JV.ofStr, he, List.append_assoc, List.cons_append, List.nil_append]

/-- Texts that need no escapes: an interval and a set. -/
example : escStr (c! "2004-06?/[..]{1984,}%") = c! "2004-06?/[..]{1984,}%" := rfl
/-- A text that does. -/
example : escStr (c! "a<b") = c! "a\\u003cb" := rfl

/-- A part of the JSON document of the package's own test (edtf_test.go:11-61), blanks and all. -/
example : (EDTFDate.unmarshal (c! " { \"start\": {\n \"edtf\": \"-1990\", \"lower\": { \"timestamp\": -124965504000 } }, \"level\" : 0 }\n")) =
    some ⟨some { edtf := c! "-1990", lower := some { timestamp := some (-124965504000) } }, none, [], 0, []⟩ := by decide +kernel

end EDTF
