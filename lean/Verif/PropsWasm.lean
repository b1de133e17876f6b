/- C57: the promise made by the function a web page calls. -/
import Verif.Wasm
import Verif.PropsJson
import Verif.PropsPanic
import Verif.PropsMessage
namespace EDTF
open Spec

/-- Some class of the expression contains the character. -/
def Re.uses (c : Char) : Re → Bool
  | .cls f rs => clsHas f rs c
  | .cat a b => a.uses c || b.uses c
  | .alt a b => a.uses c || b.uses c
  | .opt a => a.uses c
  | .star a => a.uses c
  | .plus a => a.uses c
  | .grp _ a => a.uses c
  | _ => false

theorem star_uses {P : Str → Prop} {c : Char} (hP : ∀ w, P w → c ∉ w) {w : Str} (h : Star P w) : c ∉ w := by
  induction h with
  | nil => simp
  | cons u v hu _ _ ih =>
    rw [List.mem_append]
    rintro (k | k)
    · exact hP u hu k
    · exact ih k

theorem lang_uses {c : Char} (r : Re) (hr : r.uses c = false) : ∀ w, Lang r w → c ∉ w := by
  induction r with
  | eps => rintro w rfl; simp
  | bos => rintro w rfl; simp
  | eos => rintro w rfl; simp
  | cls f rs =>
    rintro w ⟨d, rfl, hd⟩ h
    rw [List.mem_singleton] at h
    subst h
    rw [Re.uses, hd] at hr
    cases hr
  | cat a b iha ihb =>
    rw [Re.uses, Bool.or_eq_false_iff] at hr
    rintro w ⟨u, v, rfl, hu, hv⟩ h
    rcases List.mem_append.1 h with h | h
    · exact iha hr.1 u hu h
    · exact ihb hr.2 v hv h
  | alt a b iha ihb =>
    rw [Re.uses, Bool.or_eq_false_iff] at hr
    rintro w (h | h)
    · exact iha hr.1 w h
    · exact ihb hr.2 w h
  | opt a iha =>
    rintro w (rfl | h)
    · simp
    · exact iha hr w h
  | star a iha => intro w h; exact star_uses (iha hr) h
  | plus a iha =>
    rintro w ⟨u, v, rfl, hu, hv⟩ h
    rcases List.mem_append.1 h with h | h
    · exact iha hr u hu h
    · exact star_uses (iha hr) hv h
  | grp i a iha => intro w h; exact iha hr w h

/-- The expression may match the empty text. -/
def Re.nullable : Re → Bool
  | .cls _ _ => false
  | .cat a b => a.nullable && b.nullable
  | .alt a b => a.nullable || b.nullable
  | .plus a => a.nullable
  | .grp _ a => a.nullable
  | _ => true

theorem lang_nil (r : Re) (hr : r.nullable = false) : ¬ Lang r [] := by
  induction r with
  | eps => cases hr
  | bos => cases hr
  | eos => cases hr
  | cls f rs => rintro ⟨d, h, -⟩; cases h
  | cat a b iha ihb =>
    rintro ⟨u, v, e, hu, hv⟩
    obtain ⟨rfl, rfl⟩ := List.append_eq_nil_iff.1 e.symm
    rw [Re.nullable, Bool.and_eq_false_iff] at hr
    rcases hr with hr | hr
    · exact iha hr hu
    · exact ihb hr hv
  | alt a b iha ihb =>
    rw [Re.nullable, Bool.or_eq_false_iff] at hr
    rintro (h | h)
    · exact iha hr.1 h
    · exact ihb hr.2 h
  | opt a _ => cases hr
  | star a _ => cases hr
  | plus a iha =>
    rintro ⟨u, v, e, hu, -⟩
    obtain ⟨rfl, -⟩ := List.append_eq_nil_iff.1 e.symm
    exact iha hr hu
  | grp i a iha => exact iha hr

/-- No string that begins with an angle bracket is recognised. -/
theorem bracket_unrecognized {s : Str} (hh : ∃ r, s = '<' :: r) :
    parseString s = .err (Unrecognized (c! "Invalid or unsupported EDTF string") s) := by
  have h : '<' ∈ s := by obtain ⟨r, rfl⟩ := hh; exact List.mem_cons_self
  have h0 : L0.isLevel0 s = false :=
    (matchString_anch_false _ (by decide +kernel) s).2 fun k => lang_uses _ (by decide +kernel) s k h
  have h1 : L1.isLevel1 s = false :=
    (matchString_anch_false _ (by decide +kernel) s).2 fun k => lang_uses _ (by decide +kernel) s k h
  have h2 : L2.isLevel2 s = false := by
    apply Bool.eq_false_iff.2
    intro k
    unfold L2.isLevel2 Rx.Level2 at k
    rw [matchString_prefix _ (by decide +kernel)] at k
    obtain ⟨u, v, e, hu⟩ := k
    obtain ⟨r, rfl⟩ := hh
    cases u with
    | nil => exact lang_nil _ (by decide +kernel) hu
    | cons c u =>
      injection e with e1 e2
      subst e1
      exact lang_uses _ (by decide +kernel) _ hu List.mem_cons_self
  have h3 : s ≠ OPEN := by rintro rfl; revert h; decide
  have h4 : s ≠ UNKNOWN := by rintro rfl; revert h; decide
  unfold parseString
  simp [h0, h1, h2, h3, h4]

theorem bracket_fault {s : Str} (hh : ∃ r, s = '<' :: r) : ∃ f, parseStringM s = .fault f := by
  have h := bracket_unrecognized hh
  rcases parseStringM_cases s with ⟨d, -, k⟩ | ⟨f, k, -⟩ | ⟨-, k⟩
  · rw [h] at k; cases k
  · exact ⟨f, k⟩
  · rw [h] at k; cases k

/-- C57, success: the promise is fulfilled just when the argument is a string that can
be read, and then with a JSON text from which the date is had again.  Nothing is
written, and further arguments do not matter. -/
theorem C57_fulfilled_partial (v : JsValue) (vs : List JsValue) (t : Str) :
    (wasmParse (v :: vs)).promise = .fulfilled t ↔
      ∃ s d, v = .string s ∧ parseString s = .ok d ∧ t = d.marshal ∧ EDTFDate.unmarshal t = some d := by
  have nonstring : ∀ s, (∃ r, s = '<' :: r) → (wasmHandler s).promise ≠ .fulfilled t := by
    intro s hs
    unfold wasmHandler
    obtain ⟨f, h⟩ := bracket_fault hs
    rw [h]
    exact fun k => by cases k
  constructor
  · intro h
    cases v with
    | string s =>
      change (wasmHandler s).promise = _ at h
      unfold wasmHandler at h
      rcases parseStringM_cases s with ⟨d, k, hp⟩ | ⟨f, k, -⟩ | ⟨k, -⟩
      · rw [k] at h
        injection h with h
        exact ⟨s, d, rfl, hp, h.symm, h ▸ C42_parsed hp⟩
      · rw [k] at h; cases h
      · rw [k] at h; cases h
    | _ => exact absurd h (nonstring _ ⟨_, rfl⟩)
  · rintro ⟨s, d, rfl, hp, rfl, -⟩
    show (wasmHandler s).promise = _
    unfold wasmHandler
    rcases parseStringM_cases s with ⟨d', k, hp'⟩ | ⟨f, -, k⟩ | ⟨-, k⟩
    · rw [hp] at hp'
      injection hp' with hp'
      rw [k, hp']
    · rw [hp] at k; cases k
    · rw [hp] at k; cases k

/-- C57, failure: the promise is rejected just when the text of the argument is an
error of the parser.  The reason is the number of bytes of the line written, which ends
with the text of the error. -/
theorem C57_rejected_partial (v : JsValue) (vs : List JsValue) (r : JsValue) :
    (wasmParse (v :: vs)).promise = .rejected r ↔
      ∃ t, ErrorText v.toStr t ∧ r = .number (itoa (utf8Length (wasmParse (v :: vs)).stdout)) ∧
        (wasmParse (v :: vs)).stdout = c! "Failed to parse '" ++ v.toStr ++ c! "', " ++ t ++ c! "\n" := by
  have e : wasmParse (v :: vs) = wasmHandler v.toStr := rfl
  rw [e]
  unfold wasmHandler
  cases hp : parseStringM v.toStr with
  | ok d =>
    simp only [reduceCtorEq, false_iff]
    rintro ⟨t, ht, -⟩
    obtain ⟨f, h, -⟩ := (C79_text _ _).2 ht
    rw [hp] at h; cases h
  | fault f =>
    constructor
    · intro h
      injection h with h
      exact ⟨f.text, (C79_text _ _).1 ⟨f, hp, rfl⟩, h.symm, rfl⟩
    · rintro ⟨t, -, hr, -⟩
      rw [hr]
  | panic =>
    simp only [reduceCtorEq, false_iff]
    rintro ⟨t, ht, -⟩
    obtain ⟨f, h, -⟩ := (C79_text _ _).2 ht
    rw [hp] at h; cases h

/-- C57, a value that is not a string is always rejected, whatever the value. -/
theorem C57_nonstring (v : JsValue) (vs : List JsValue) (h : ∀ s, v ≠ .string s) :
    ∃ n, (wasmParse (v :: vs)).promise = .rejected (.number (itoa n)) := by
  have key : ∀ s, (∃ r, s = '<' :: r) → ∃ n, (wasmHandler s).promise = .rejected (.number (itoa n)) := by
    intro s hs
    unfold wasmHandler
    obtain ⟨f, h⟩ := bracket_fault hs
    rw [h]
    exact ⟨_, rfl⟩
  cases v with
  | string s => exact absurd rfl (h s)
  | _ => exact key _ ⟨_, rfl⟩

example : ∃ n, (wasmParse [.number (c! "1985")]).promise = .rejected (.number n) := ⟨_, rfl⟩

/-- C57, the program ends just when it is called without an argument or the parser
panics; otherwise the promise is settled. -/
theorem C57_crashed (vs : List JsValue) :
    (wasmParse vs).promise = .crashed ↔ vs = [] ∨ ∃ s ws, vs = .string s :: ws ∧ parseString s = .panic := by
  cases vs with
  | nil => simp [wasmParse]
  | cons v ws =>
    have e : wasmParse (v :: ws) = wasmHandler v.toStr := rfl
    constructor
    · intro h
      refine Or.inr ?_
      by_cases hv : ∃ s, v = .string s
      · obtain ⟨s, rfl⟩ := hv
        refine ⟨s, ws, rfl, ?_⟩
        rw [e] at h
        unfold wasmHandler at h
        change (match parseStringM s with | .fault _ => _ | .panic => _ | .ok _ => _ : JsCall).promise = _ at h
        rcases parseStringM_cases s with ⟨d, k, -⟩ | ⟨f, k, -⟩ | ⟨-, k⟩
        · rw [k] at h; cases h
        · rw [k] at h; cases h
        · exact k
      · obtain ⟨n, hn⟩ := C57_nonstring v ws (fun s k => hv ⟨s, k⟩)
        rw [h] at hn
        cases hn
    · rintro (k | ⟨s, ws', k, hp⟩)
      · cases k
      · injection k with k1 k2
        subst k1
        rw [e]
        unfold wasmHandler
        show (match parseStringM s with | .fault _ => _ | .panic => _ | .ok _ => _ : JsCall).promise = _
        rcases parseStringM_cases s with ⟨d, -, k⟩ | ⟨f, -, k⟩ | ⟨k, -⟩
        · rw [hp] at k; cases k
        · rw [hp] at k; cases k
        · rw [k]

/-- C57 fails as stated: two different errors whose lines have the same length reject
the promise with the same reason, and the reason is never a string. -/
theorem C57_negation :
    (∀ v vs r, (wasmParse (v :: vs)).promise = .rejected r → ∀ s, r ≠ .string s) ∧
    (wasmParse [.string (c! "tomorrow")]).promise = .rejected (.number (c! "101")) ∧
    (wasmParse [.string (c! "thursday")]).promise = .rejected (.number (c! "101")) ∧
    (wasmParse [.string (c! "1950S5")]).promise = .crashed := by
  refine ⟨?_, by decide +kernel, by decide +kernel, (C57_crashed _).2 (Or.inr ⟨_, _, rfl, C15_negation.1⟩)⟩
  intro v vs r h s k
  obtain ⟨_, _, hr, _⟩ := (C57_rejected_partial v vs r).1 h
  rw [hr] at k
  cases k

/- Beside C57: a string that is read, with an argument too many; a number instead of
the string; and a string with characters of two bytes each. -/
example : ∃ d t, (wasmParse [.string (c! "2004-06/2006-08"), .null]).promise = .fulfilled t ∧ EDTFDate.unmarshal t = some d :=
  have h : parseString (c! "2004-06/2006-08") = .ok _ := rfl
  ⟨_, _, (C57_fulfilled_partial _ _ _).2 ⟨_, _, rfl, h, rfl, C42_parsed h⟩, C42_parsed h⟩
example : ∃ n, (wasmParse [.number (c! "2004")]).promise = .rejected (.number (itoa n)) :=
  C57_nonstring (.number (c! "2004")) [] (fun _ k => by cases k)
example : wasmParse [.string (c! "été")] = ⟨.rejected (.number (c! "95")),
    c! "Failed to parse 'été', Unrecognized EDTF string 'été' (Invalid or unsupported EDTF string)\n"⟩ := by decide +kernel

end EDTF
