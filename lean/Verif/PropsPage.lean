/-
C88: what the web page shows.
-/
import Verif.LemmasPage
import Verif.PropsWasm
namespace EDTF
open Spec
variable {f : Int → Nat → Nat → Int}

/-- C88, the field: what is read from it is what was typed, without line ends. -/
theorem C88_entered (typed s : Str) : fieldValue typed = s ↔ Entered typed s := by
  have e : ∀ c : Char, (decide (c ≠ '\n' ∧ c ≠ '\r')) = true ↔ ¬ (c = '\n' ∨ c = '\r') := by
    intro c
    rw [decide_eq_true_iff, not_or]
  constructor
  · rintro rfl
    refine ⟨fun h => ?_, fun h => ?_, typed.map (fun c => if c = '\n' ∨ c = '\r' then ([], [c]) else ([c], [])), ?_, ?_, ?_⟩
    · have := (List.mem_filter.1 h).2
      rw [e] at this
      exact this (.inl rfl)
    · have := (List.mem_filter.1 h).2
      rw [e] at this
      exact this (.inr rfl)
    · induction typed with
      | nil => rfl
      | cons c t ih =>
        rw [List.map_cons, List.flatMap_cons, ← ih]
        split <;> rfl
    · induction typed with
      | nil => rfl
      | cons c t ih =>
        rw [List.map_cons, List.flatMap_cons, ← ih, fieldValue, List.filter_cons]
        by_cases h : c = '\n' ∨ c = '\r'
        · rw [if_pos h, if_neg (by rw [e]; exact fun k => k h)]; rfl
        · rw [if_neg h, if_pos ((e c).2 h)]; rfl
    · intro p hp c hc
      obtain ⟨d, -, rfl⟩ := List.mem_map.1 hp
      split at hc
      · rename_i h
        rw [List.mem_singleton] at hc
        exact hc ▸ h
      · exact absurd hc List.not_mem_nil
  · rintro ⟨h1, h2, parts, rfl, rfl, hp⟩
    unfold fieldValue
    induction parts with
    | nil => rfl
    | cons p ps ih =>
      simp only [List.flatMap_cons] at h1 h2 ⊢
      rw [List.filter_append, List.filter_append,
        ih (fun q hq => hp q (by simp [hq])) (fun h => h1 (List.mem_append.2 (.inr h))) (fun h => h2 (List.mem_append.2 (.inr h)))]
      have a : p.1.filter (fun c => c ≠ '\n' ∧ c ≠ '\r') = p.1 := by
        rw [List.filter_eq_self]
        intro c hc
        rw [e]
        rintro (rfl | rfl)
        · exact h1 (List.mem_append.2 (.inl hc))
        · exact h2 (List.mem_append.2 (.inl hc))
      have b : p.2.filter (fun c => c ≠ '\n' ∧ c ≠ '\r') = [] := by
        rw [List.filter_eq_nil_iff]
        intro c hc
        rw [e]
        exact fun k => k (hp p (by simp) c hc)
      rw [a, b, List.append_nil]

theorem fits64_parsed {s : Str} {d : EDTFDate} (h : parseString s = .ok d) : Spec.Fits64 d := by
  obtain ⟨es, ee, sl, su, el, eu, h1, h2, b1, b2, b3, b4⟩ := C31_wellformed dayCount_unixDay h
  refine ⟨?_, ?_, ?_⟩
  · intro r hr
    rw [h1] at hr
    injection hr with hr
    subst hr
    exact ⟨fun b e => by injection e with e; subst e; exact fits_of_boundary b1, fun b e => by injection e with e; subst e; exact fits_of_boundary b2⟩
  · intro r hr
    rw [h2] at hr
    injection hr with hr
    subst hr
    exact ⟨fun b e => by injection e with e; subst e; exact fits_of_boundary b3, fun b e => by injection e with e; subst e; exact fits_of_boundary b4⟩
  · have : d.level = -1 ∨ d.level = 0 ∨ d.level = 1 ∨ d.level = 2 := by
      rcases (parse_inv h).2.2 with h | h
      · exact .inl h.1
      · exact .inr h.2
    unfold Spec.Int64; omega

theorem showPage_cases (typed : Str) :
    (∃ d, parseString (fieldValue typed) = .ok d ∧ showPage typed = .pre (unlines (block d.toJson))) ∨
    (∃ t, ErrorText (fieldValue typed) t ∧ showPage typed = .message (c! "There was a problem parsing your EDTF string:" ++
      itoa (utf8Length (c! "Failed to parse '" ++ fieldValue typed ++ c! "', " ++ t ++ c! "\n")))) ∨
    (parseString (fieldValue typed) = .panic ∧ showPage typed = .hidden) := by
  unfold showPage
  cases hp : (wasmParse [.string (fieldValue typed)]).promise with
  | crashed =>
    refine .inr (.inr ⟨?_, rfl⟩)
    rcases (C57_crashed _).1 hp with k | ⟨s, ws, k, h⟩
    · cases k
    · injection k with k1 k2
      injection k1 with k1
      rw [k1]
      exact h
  | rejected r =>
    obtain ⟨t, ht, hr, ho⟩ := (C57_rejected_partial _ _ _).1 hp
    refine .inr (.inl ⟨t, ht, ?_⟩)
    rw [hr, ho]
    rfl
  | fulfilled t =>
    obtain ⟨s, d, k, h, rfl, -⟩ := (C57_fulfilled_partial _ _ _).1 hp
    injection k with k
    rw [← k] at h
    refine .inl ⟨d, h, ?_⟩
    have hr : readJson d.marshal = some d.toJson := readJson_text (wf_edtf d) (by have := depth_edtf d; omega)
    simp only [hr, js_parsed h, if_true, stringify_lines]

/-- C88, a date: the page shows a document just when the text has a meaning, and then it shows the
fields of the date line by line. -/
theorem C88_date (hf : DayCount f) (typed text : Str) :
    showPage typed = .pre text ↔ ∃ s d, Entered typed s ∧ Denotes f s d ∧ text = unlines (block d.toJson) := by
  constructor
  · intro h
    rcases showPage_cases typed with ⟨d, hp, k⟩ | ⟨t, -, k⟩ | ⟨-, k⟩
    · rw [h] at k
      injection k with k
      exact ⟨_, d, (C88_entered _ _).1 rfl, (C55_denotes hf _ _).1 hp, k⟩
    · rw [h] at k; cases k
    · rw [h] at k; cases k
  · rintro ⟨s, d, he, hd, rfl⟩
    have he := (C88_entered _ _).2 he
    have hd := (C55_denotes hf _ _).2 hd
    subst he
    rcases showPage_cases typed with ⟨d', hp, k⟩ | ⟨t, ht, k⟩ | ⟨hp, k⟩
    · rw [hd] at hp
      injection hp with hp
      rw [k, hp]
    · obtain ⟨g, hg, -⟩ := (C79_text _ _).2 ht
      rcases parseStringM_cases (fieldValue typed) with ⟨d, k, -⟩ | ⟨f, -, k⟩ | ⟨k, -⟩
      · rw [hg] at k; cases k
      · rw [hd] at k; cases k
      · rw [hg] at k; cases k
    · rw [hd] at hp; cases hp

/-- C88, the document can be copied from the page: read as JSON it gives the date. -/
theorem C88_copied (hf : DayCount f) {typed text : Str} (h : showPage typed = .pre text) :
    ∃ s d, Entered typed s ∧ Denotes f s d ∧ EDTFDate.unmarshal text = some d := by
  obtain ⟨s, d, he, hd, rfl⟩ := (C88_date hf _ _).1 h
  refine ⟨s, d, he, hd, ?_⟩
  rw [← stringify_lines]
  exact unmarshal_stringify (fits64_parsed ((C55_denotes hf _ _).2 hd))

theorem length_line (s t : Str) : utf8Length (c! "Failed to parse '" ++ s ++ c! "', " ++ t ++ c! "\n") = utf8Length s + utf8Length t + 21 := by
  have ap : ∀ a b : Str, utf8Length (a ++ b) = utf8Length a + utf8Length b := by
    intro a b
    induction a with
    | nil => show utf8Length b = 0 + utf8Length b; omega
    | cons c a ih =>
      show c.utf8Size + utf8Length (a ++ b) = c.utf8Size + utf8Length a + utf8Length b
      rw [ih]; omega
  simp only [ap]
  have e1 : utf8Length (c! "Failed to parse '") = 17 := by decide +kernel
  have e2 : utf8Length (c! "', ") = 3 := by decide +kernel
  have e3 : utf8Length (c! "\n") = 1 := by decide +kernel
  omega

/-- C88, an error: the page shows a message just when the parser reports an error.  All that the
message says of it is a number, 21 more than the bytes of the text and of the error. -/
theorem C88_error (typed text : Str) :
    showPage typed = .message text ↔ ∃ s e, Entered typed s ∧ ErrorText s e ∧
      text = c! "There was a problem parsing your EDTF string:" ++ natDigits (utf8Length s + utf8Length e + 21) := by
  have nat : ∀ n : Nat, itoa (n : Int) = natDigits n := by
    intro n
    unfold itoa
    rw [if_neg (by omega)]
    rfl
  constructor
  · intro h
    rcases showPage_cases typed with ⟨d, -, k⟩ | ⟨t, ht, k⟩ | ⟨-, k⟩
    · rw [h] at k; cases k
    · rw [h, nat, length_line] at k
      injection k with k
      exact ⟨_, t, (C88_entered _ _).1 rfl, ht, k⟩
    · rw [h] at k; cases k
  · rintro ⟨s, e, he, hd, rfl⟩
    have he := (C88_entered _ _).2 he
    rcases showPage_cases typed with ⟨d', hp, k⟩ | ⟨t, ht, k⟩ | ⟨hp, k⟩
    · rw [he] at hp
      obtain ⟨g, hg, -⟩ := (C79_text _ _).2 hd
      rcases parseStringM_cases s with ⟨d, k, -⟩ | ⟨f, -, k⟩ | ⟨k, -⟩
      · rw [hg] at k; cases k
      · rw [hp] at k; cases k
      · rw [hg] at k; cases k
    · rw [he] at ht k
      rw [k, C79_unique ht hd, nat, length_line]
    · rw [he] at hp
      obtain ⟨g, hg, -⟩ := (C79_text _ _).2 hd
      rcases parseStringM_cases s with ⟨d, k, -⟩ | ⟨f, -, k⟩ | ⟨k, -⟩
      · rw [hg] at k; cases k
      · rw [hp] at k; cases k
      · rw [hg] at k; cases k

/-- C88, a panic: the page shows nothing just when the parser panics.  There is no further case. -/
theorem C88_nothing (typed : Str) :
    (showPage typed = .hidden ↔ ∃ s, Entered typed s ∧ Panics s) ∧ showPage typed ≠ .unable ∧ showPage typed ≠ .beyond := by
  have en : (∃ s, Entered typed s ∧ Panics s) ↔ parseString (fieldValue typed) = .panic := by
    rw [C63_panic]
    constructor
    · rintro ⟨s, he, hp⟩
      rw [(C88_entered _ _).2 he]
      exact hp
    · exact fun h => ⟨_, (C88_entered _ _).1 rfl, h⟩
  rw [en]
  rcases showPage_cases typed with ⟨d, hp, k⟩ | ⟨t, ht, k⟩ | ⟨hp, k⟩
  · rw [k, hp]; exact ⟨⟨nofun, nofun⟩, nofun, nofun⟩
  · rw [k]
    obtain ⟨g, hg, rfl⟩ := (C79_text _ _).2 ht
    refine ⟨⟨nofun, fun hp => ?_⟩, nofun, nofun⟩
    rcases parseStringM_cases (fieldValue typed) with ⟨d, k, -⟩ | ⟨f, -, hm⟩ | ⟨k, -⟩
    · rw [hg] at k; cases k
    · rw [hp] at hm; cases hm
    · rw [hg] at k; cases k
  · rw [k, hp]; exact ⟨⟨fun _ => rfl, fun _ => rfl⟩, nofun, nofun⟩

theorem session_ended (ts : List Str) : pageSession true ts = ts.map (fun _ => .hidden) := by
  induction ts with
  | nil => rfl
  | cons t ts ih => rw [pageSession, if_pos rfl, ih]; rfl

theorem crashed_iff (typed : Str) : (wasmParse [.string (fieldValue typed)]).promise = .crashed ↔ ∃ s, Entered typed s ∧ Panics s := by
  rw [C57_crashed]
  constructor
  · rintro (k | ⟨s, ws, k, h⟩)
    · cases k
    · injection k with k1 k2
      injection k1 with k1
      exact ⟨s, (C88_entered _ _).1 k1, (C63_panic _).1 h⟩
  · rintro ⟨s, he, hp⟩
    exact .inr ⟨s, [], by rw [(C88_entered _ _).2 he], (C63_panic _).2 hp⟩

/-- C88, one text after the other: until the parser panics each is shown as if it were the first;
from then on nothing is shown, whatever is typed, until the page is loaded again. -/
theorem C88_session (before after : List Str) (typed : Str) (hb : ∀ t ∈ before, ¬ ∃ s, Entered t s ∧ Panics s) :
    pageSession false before = before.map showPage ∧
    ((∃ s, Entered typed s ∧ Panics s) →
      pageSession false (before ++ typed :: after) = before.map showPage ++ .hidden :: after.map (fun _ => .hidden)) := by
  have step : ∀ rest, pageSession false (before ++ rest) = before.map showPage ++ pageSession false rest := by
    intro rest
    induction before with
    | nil => rfl
    | cons t ts ih =>
      rw [List.cons_append, pageSession, if_neg (by decide)]
      have hn : ¬ (wasmParse [.string (fieldValue t)]).promise = .crashed := by
        rw [crashed_iff]
        exact hb t (by simp)
      rw [decide_eq_false hn, ih (fun t ht => hb t (by simp [ht]))]
      rfl
  refine ⟨?_, fun hp => ?_⟩
  · have := step []
    simpa [pageSession] using this
  · rw [step, pageSession, if_neg (by decide), decide_eq_true ((crashed_iff typed).2 hp), session_ended,
      (C88_nothing typed).1.2 hp]

/- Beside C88: a date pasted with a line end behind it; the page for an interval, in full; a season
with a tab, which is escaped; an error; and a panic between two dates. -/
example : Entered (c! "1985-04-12\r\n") (c! "1985-04-12") := (C88_entered _ _).1 (by decide)
example : showPage (c! "../2004-06\n") = .pre (c! "{
  \"start\": {
    \"edtf\": \"..\",
    \"lower\": {
      \"ymd\": null,
      \"open\": true
    },
    \"upper\": {
      \"ymd\": null,
      \"open\": true
    }
  },
  \"end\": {
    \"edtf\": \"2004-06\",
    \"lower\": {
      \"datetime\": \"2004-06-01T00:00:00Z\",
      \"timestamp\": 1086048000,
      \"ymd\": {
        \"year\": 2004,
        \"month\": 6,
        \"day\": 1
      },
      \"precision\": 64
    },
    \"upper\": {
      \"datetime\": \"2004-06-30T23:59:59Z\",
      \"timestamp\": 1088639999,
      \"ymd\": {
        \"year\": 2004,
        \"month\": 6,
        \"day\": 30
      },
      \"precision\": 64
    }
  },
  \"edtf\": \"../2004-06\",
  \"level\": 1,
  \"feature\": \"Extended Interval (Start)\"
}") := by decide +kernel
example (hf : DayCount f) : ∃ text, showPage (c! "Spring,\t2001") = .pre text ∧ ∃ s d, Denotes f s d ∧ EDTFDate.unmarshal text = some d := by
  have p : (match showPage (c! "Spring,\t2001") with | .pre _ => true | _ => false) = true := by decide +kernel
  rcases showPage_cases (c! "Spring,\t2001") with ⟨d, -, k⟩ | ⟨t, -, k⟩ | ⟨-, k⟩
  · obtain ⟨s, d, -, hd, hu⟩ := C88_copied hf k
    exact ⟨_, k, s, d, hd, hu⟩
  · rw [k] at p; cases p
  · rw [k] at p; cases p
example : showPage (c! "été") = .message (c! "There was a problem parsing your EDTF string:95") := by decide +kernel
example : pageSession false [c! "1985", c! "1950S5", c! "1985"] = [showPage (c! "1985"), .hidden, .hidden] :=
  (C88_session [c! "1985"] [c! "1985"] (c! "1950S5") (fun t ht => by
    rw [List.mem_singleton] at ht
    subst ht
    rw [← crashed_iff]
    decide +kernel)).2 ⟨_, (C88_entered _ _).1 rfl, (C63_panic _).1 C15_negation.1⟩

/-- C88 (finding 38): two errors that differ can look the same on the page. -/
theorem C88_alike :
    showPage (c! "tomorrow") = .message (c! "There was a problem parsing your EDTF string:101") ∧
    showPage (c! "2021-02-30") = showPage (c! "2021-02-31") := by
  exact ⟨by decide +kernel, by decide +kernel⟩

end EDTF
