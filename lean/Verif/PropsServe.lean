/- C90: what the server answers. -/
import Verif.LemmasServe
namespace EDTF
open Spec

theorem tidy_tail {e : Str} {es : List Str} (h0 : es ≠ []) (h : Tidy (e :: es)) : Tidy es := by
  obtain ⟨h1, h2⟩ := h
  cases es with
  | nil => exact absurd rfl h0
  | cons x es =>
    refine ⟨fun y hy => h1 y ?_, fun y hy => h2 y ?_⟩
    · rw [List.dropLast_cons_cons]; exact List.mem_cons_of_mem _ hy
    · rw [List.getLast?_cons_cons]; exact hy

theorem has_total (table : List (List Str × Found)) (es : List Str) : ∃ f, Has table es f := by
  by_cases h : es.getLast? = some (c! "index.html")
  · obtain ⟨st, rfl⟩ := List.getLast?_eq_some_iff.1 h
    exact ⟨_, .index st⟩
  · by_cases k : ∃ f, (es, f) ∈ table
    · obtain ⟨f, k⟩ := k
      exact ⟨_, .row es f h k⟩
    · exact ⟨_, .none es h (fun f q => k ⟨f, q⟩)⟩

theorem path_bytes {t raw q p : Str} (T : Target t raw q p) (hb : ∀ c ∈ t, c.toNat < 256) : (∀ c ∈ p, c.toNat < 256) ∧ ∀ c ∈ q, c.toNat < 256 := by
  have : (∀ c ∈ raw, c ∈ t) ∧ ∀ c ∈ q, c ∈ t := by
    rcases T.text with ⟨rfl, rfl⟩ | rfl
    · exact ⟨fun c h => h, fun c h => by cases h⟩
    · exact ⟨fun c h => by simp [h], fun c h => by simp [h]⟩
  exact ⟨decodes_bytes T.path (fun c h => hb c (this.1 c h)), fun c h => hb c (this.2 c h)⟩

theorem straight_bytes {es : List Str} (h : ∀ c ∈ pathText es, c.toNat < 256) : ∀ c ∈ pathText (straight es), c.toNat < 256 := by
  have key : ∀ (es st : List Str), (∀ e ∈ es, ∀ c ∈ e, c.toNat < 256) → (∀ e ∈ st, ∀ c ∈ e, c.toNat < 256) → ∀ e ∈ walk st es, ∀ c ∈ e, c.toNat < 256 := by
    intro es
    induction es with
    | nil => intro st _ h; exact h
    | cons x es ih =>
      intro st h1 h2
      unfold walk
      refine ih _ (fun e he => h1 e (List.mem_cons_of_mem _ he)) ?_
      split
      · exact h2
      · split
        · exact fun e he => h2 e (List.dropLast_subset _ he)
        · intro e he
          rcases List.mem_append.1 he with he | he
          · exact h2 e he
          · simp only [List.mem_singleton] at he; subst he; exact h1 e List.mem_cons_self
  have h1 : ∀ e ∈ es, ∀ c ∈ e, c.toNat < 256 := fun e he c hc => h c (List.mem_flatMap.2 ⟨e, he, List.mem_cons_of_mem _ hc⟩)
  have h2 := key es [] h1 (by intro e he; cases he)
  have h3 : ∀ e ∈ straight es, ∀ c ∈ e, c.toNat < 256 := by
    unfold straight
    split
    · intro e he
      rcases List.mem_append.1 he with he | he
      · exact h2 e he
      · simp only [List.mem_singleton] at he; subst he; intro c hc; cases hc
    · exact h2
  intro c hc
  obtain ⟨e, he, hc⟩ := List.mem_flatMap.1 hc
  rcases List.mem_cons.1 hc with rfl | hc
  · decide
  · exact h3 e he c hc

theorem escape_wasm (s : Str) : escapePath (c! "/wasm/" ++ s) = c! "/wasm/" ++ escapePath s := by
  have : escapePath (c! "/wasm/") = c! "/wasm/" := by decide
  unfold escapePath at this ⊢
  rw [List.flatMap_append, this]

theorem wasm_path {es : List Str} (h0 : es ≠ []) : ∃ s, pathText es = '/' :: s ∧ pathText (c! "wasm" :: es) = c! "/wasm/" ++ s := by
  cases es with
  | nil => exact absurd rfl h0
  | cons e es => exact ⟨e ++ pathText es, by rw [pathText_cons], by rw [pathText_cons, pathText_cons]; rfl⟩

/-- Each of the answers described is the answer given. -/
theorem serves_of {ps : List Str} (H : Programs ps) {t : Str} (ht : ∃ s, t = '/' :: s) (hb : ∀ c ∈ t, c.toNat < 256) {r : Response} (h : Answers ps t r) :
    respond ps t = r := by
  cases h with
  | bad h => exact respond_bad ht h
  | straight raw q es he T h hw =>
    rw [respond_target ht T]
    unfold serveMux
    have hc := cleanPath_eq he
    have hse := straight_elements he
    obtain ⟨b1, b2⟩ := path_bytes T hb
    have n1 : pathText (straight es) ≠ c! "/wasm" := fun k =>
      hw (pathText_inj hse.2 (b := [c! "wasm"]) (by decide) (k.trans rfl))
    have n2 : pathText (straight es) ≠ pathText es := fun k => h ((tidy_iff he.1).2 (pathText_inj hse.2 he.2 k))
    simp only [hc, n1, if_false, ne_eq, n2, not_false_eq_true, if_true]
    exact redirectTo_eq (straight_bytes b1) b2
  | wasmDir raw q es he T hw =>
    rw [respond_target ht T]
    unfold serveMux
    have hc := cleanPath_eq he
    obtain ⟨b1, b2⟩ := path_bytes T hb
    have e1 : pathText (straight es) = c! "/wasm" := by rw [hw]; rfl
    simp only [hc, e1, if_true]
    rw [redirectTo_eq (by decide) b2]
    rfl
  | wasm raw q es he h0 T h hr f hf =>
    rw [respond_target ht T]
    obtain ⟨s, k1, k2⟩ := wasm_path h0
    have hc := cleanPath_eq he
    rw [straight_of_tidy he.1 h] at hc
    have hes : Elements es := ⟨h0, fun e q => he.2 e (List.mem_cons_of_mem _ q)⟩
    have htes := tidy_tail h0 h
    have n1 : pathText (c! "wasm" :: es) ≠ c! "/wasm" := fun k => by
      have := pathText_inj he.2 (b := [c! "wasm"]) (by decide) (k.trans rfl)
      injection this with _ k; exact h0 k
    have n2 : hasPrefix (pathText (c! "wasm" :: es)) (c! "/wasm/") = true := by
      unfold hasPrefix; rw [List.isPrefixOf_iff_prefix, k2]; exact ⟨s, rfl⟩
    have n3 : ∀ x : Str, (if raw = x then [] else raw) = [] ∨ hasPrefix (if raw = x then [] else raw) (c! "/wasm/") = true := by
      intro x
      split
      · exact .inl rfl
      · refine .inr ?_
        unfold hasPrefix; rw [List.isPrefixOf_iff_prefix]; exact hr
    unfold serveMux
    simp only [hc, n1, if_false, n2, if_true, ne_eq, not_true]
    unfold stripPrefix
    rw [if_pos ⟨n2, n3 _⟩]
    rw [← wasm_has H hes htes hf (if (if raw = escapePath (pathText (c! "wasm" :: es)) then [] else raw) = [] then []
      else (if raw = escapePath (pathText (c! "wasm" :: es)) then [] else raw).drop (c! "/wasm/").length) q]
    have e1 : (pathText (c! "wasm" :: es)).drop (c! "/wasm/").length = s := by rw [k2]; exact List.drop_left
    unfold fileServer
    simp only [e1, k1]
    have e2 : hasPrefix s (c! "/") = false := by
      cases es with
      | nil => exact absurd rfl h0
      | cons e es =>
        rw [pathText_cons] at k1
        injection k1 with _ k1
        subst k1
        cases e with
        | nil =>
          cases es with
          | nil => rfl
          | cons x es => exact absurd rfl (htes.1 [] (by simp)).1
        | cons c e =>
          have := hes.2 (c :: e) List.mem_cons_self
          simp only [List.mem_cons, not_or] at this
          have hc : ('/' == c) = false := by rw [beq_eq_false_iff_ne]; exact this.1
          simp [hasPrefix, List.isPrefixOf, hc]
    simp only [e2]
    have e3 : hasPrefix ('/' :: s) (c! "/") = true := by simp [hasPrefix]
    rw [if_pos e3]
    rfl
  | wasmEscaped raw q es he h0 T h hr =>
    rw [respond_target ht T]
    obtain ⟨s, k1, k2⟩ := wasm_path h0
    have hc := cleanPath_eq he
    rw [straight_of_tidy he.1 h] at hc
    have n1 : pathText (c! "wasm" :: es) ≠ c! "/wasm" := fun k => by
      have := pathText_inj he.2 (b := [c! "wasm"]) (by decide) (k.trans rfl)
      injection this with _ k; exact h0 k
    have n2 : hasPrefix (pathText (c! "wasm" :: es)) (c! "/wasm/") = true := by
      unfold hasPrefix; rw [List.isPrefixOf_iff_prefix, k2]; exact ⟨s, rfl⟩
    have n3 : raw ≠ escapePath (pathText (c! "wasm" :: es)) := by
      rintro rfl
      exact hr (by rw [k2, escape_wasm]; exact ⟨_, rfl⟩)
    have n4 : raw ≠ [] := by
      rintro rfl
      have := T.path
      rw [k2] at this
      cases this
    unfold serveMux
    simp only [hc, n1, if_false, n2, if_true, ne_eq, not_true]
    unfold stripPrefix
    rw [if_neg]
    rintro ⟨_, k⟩
    rw [if_neg n3] at k
    rcases k with k | k
    · exact n4 k
    · unfold hasPrefix at k; rw [List.isPrefixOf_iff_prefix] at k; exact hr k
  | www raw q es he T h hw f hf =>
    rw [respond_target ht T]
    have hc := cleanPath_eq he
    rw [straight_of_tidy he.1 h] at hc
    have n1 : pathText es ≠ c! "/wasm" := fun k => by
      have := pathText_inj he.2 (b := [c! "wasm"]) (by decide) (k.trans rfl)
      subst this; exact hw rfl
    have n2 : hasPrefix (pathText es) (c! "/wasm/") = false := by
      cases k : hasPrefix (pathText es) (c! "/wasm/") with
      | false => rfl
      | true =>
        exfalso
        unfold hasPrefix at k
        rw [List.isPrefixOf_iff_prefix] at k
        obtain ⟨s, hs⟩ := k
        cases es with
        | nil => exact he.1 rfl
        | cons e es =>
          rw [pathText_cons] at hs
          injection hs with _ hs
          have := split_slash (a := c! "wasm") (r := '/' :: s) (by decide) (he.2 e List.mem_cons_self) (.inr rfl) (pathText_head _) hs
          exact hw (by rw [← this.1]; rfl)
    unfold serveMux
    simp only [hc, n1, if_false, n2, ne_eq, not_true]
    exact www_has ps he h hf _ q

/-- One of the descriptions applies. -/
theorem serves_total (ps : List Str) {t : Str} (ht : ∃ s, t = '/' :: s) : ∃ r, Answers ps t r := by
  by_cases h : ∃ raw q p, Target t raw q p
  · obtain ⟨raw, q, p, T⟩ := h
    obtain ⟨s', hp⟩ : ∃ s', p = '/' :: s' := by
      obtain ⟨s, rfl⟩ := ht
      have : ∃ w, raw = '/' :: w := by
        cases raw with
        | nil =>
          rcases T.text with ⟨k, _⟩ | k
          · cases k
          · injection k with k _; exact absurd k (by decide)
        | cons c w =>
          rcases T.text with ⟨k, _⟩ | k
          · injection k with k _; subst k; exact ⟨w, rfl⟩
          · injection k with k _; subst k; exact ⟨w, rfl⟩
      obtain ⟨w, rfl⟩ := this
      have := T.path
      generalize hx : '/' :: w = x at this
      cases this with
      | nil => cases hx
      | char c s p _ _ => injection hx with k _; subst k; exact ⟨_, rfl⟩
      | escape => injection hx with k _; exact absurd k (by decide)
    obtain ⟨es, he, hes⟩ := elements_exist s'
    rw [hp, ← hes] at T
    by_cases hw : straight es = [c! "wasm"]
    · exact ⟨_, .wasmDir raw q es he T hw⟩
    · by_cases ht : Tidy es
      · by_cases hh : es.head? = some (c! "wasm")
        · cases es with
          | nil => exact absurd rfl he.1
          | cons e es =>
            cases hh
            have h0 : es ≠ [] := by
              rintro rfl
              exact hw (straight_of_tidy he.1 ht)
            by_cases hr : c! "/wasm/" <+: raw
            · obtain ⟨f, hf⟩ := has_total (wasmTable ps) es
              exact ⟨_, .wasm raw q es he h0 T ht hr f hf⟩
            · exact ⟨_, .wasmEscaped raw q es he h0 T ht hr⟩
        · obtain ⟨f, hf⟩ := has_total wwwTable es
          exact ⟨_, .www raw q es he T ht hh f hf⟩
      · exact ⟨_, .straight raw q es he T ht hw⟩
  · exact ⟨_, .bad h⟩

/-- C90: the answer to every target that begins with a slash.  -/
theorem C90_answers {ps : List Str} (H : Programs ps) {t : Str} (ht : ∃ s, t = '/' :: s) (hb : ∀ c ∈ t, c.toNat < 256) (r : Response) :
    respond ps t = r ↔ Answers ps t r := by
  constructor
  · intro h
    obtain ⟨r', k⟩ := serves_total ps ht
    rw [serves_of H ht hb k] at h
    exact h ▸ k
  · exact serves_of H ht hb

/-- C90: nothing but the embedded files is served. -/
theorem C90_contained {ps : List Str} (H : Programs ps) {t : Str} {site : Site} {name : Str} (ht : ∃ s, t = '/' :: s) (hb : ∀ c ∈ t, c.toNat < 256)
    (h : respond ps t = .file site name) :
    site = .wasm ∧ name ∈ ps ∨ site = .www ∧ name ∈ [c! "index.html", c! "css/bootstrap.min.css", c! "css/index.css", c! "javascript/index.js",
      c! "javascript/sfomuseum.golang.wasm.bundle.js"] := by
  have h := (C90_answers H ht hb _).1 h
  generalize hr : Response.file site name = r at h
  cases h with
  | bad => cases hr
  | straight => cases hr
  | wasmDir => cases hr
  | wasmEscaped => cases hr
  | wasm raw q es he h0 T h hraw f hf =>
    cases hf with
    | index => cases hr
    | none => cases hr
    | row es f hi hm =>
      unfold wasmTable at hm
      rcases List.mem_cons.1 hm with hm | hm
      · cases hm; cases hr
      · obtain ⟨p, hp, hm⟩ := List.mem_flatMap.1 hm
        simp only [List.mem_cons, List.not_mem_nil, or_false, Prod.mk.injEq] at hm
        rcases hm with ⟨_, rfl⟩ | ⟨_, rfl⟩
        · cases hr; exact .inl ⟨rfl, hp⟩
        · cases hr
  | www raw q es he T h hw f hf =>
    cases hf with
    | index => cases hr
    | none => cases hr
    | row es f hi hm =>
      have key : ∀ x ∈ wwwTable, ∀ n, x.2 = .file n → n ∈ [c! "index.html", c! "css/bootstrap.min.css", c! "css/index.css", c! "javascript/index.js",
          c! "javascript/sfomuseum.golang.wasm.bundle.js"] := by
        intro x hx n hn
        unfold wwwTable at hx
        simp only [List.mem_cons, List.not_mem_nil, or_false] at hx
        rcases hx with rfl | rfl | rfl | rfl | rfl | rfl | rfl | rfl | rfl | rfl | rfl | rfl | rfl | rfl <;> cases hn <;> decide
      cases f with
      | file n => cases hr; exact .inr ⟨rfl, key _ hm _ rfl⟩
      | names ns => cases hr
      | to l => cases hr

theorem parse_programs : Programs [c! "parse-js.wasm"] :=
  ⟨List.pairwise_singleton _ _, fun p hp => by rw [List.mem_singleton.1 hp]; exact ⟨by decide, c! "parse-js", rfl⟩⟩

/-- Answers of all kinds. -/
example : respond [c! "parse-js.wasm"] (c! "/a b") = .bad ∧ respond [c! "parse-js.wasm"] (c! "/%4") = .bad ∧
    respond [c! "parse-js.wasm"] (c! "/css/../a%20b/?x") = .redirect (c! "/a%20b/?x") ∧ respond [c! "parse-js.wasm"] (c! "/x/../wasm") = .redirect (c! "/wasm/") ∧
    respond [c! "parse-js.wasm"] (c! "/wasm/parse-js.wasm") = .file .wasm (c! "parse-js.wasm") ∧ respond [c! "parse-js.wasm"] (c! "/wasm/") = .listing .wasm [c! "parse-js.wasm"] ∧
    respond [c! "parse-js.wasm"] (c! "/%77asm/parse-js.wasm") = .notFound ∧ respond [c! "parse-js.wasm"] (c! "/css%2Findex.css") = .file .www (c! "css/index.css") ∧
    respond [c! "parse-js.wasm"] (c! "/none/index.html") = .redirect (c! "./") ∧ respond [c! "parse-js.wasm"] (c! "/none/") = .notFound := by decide +kernel
example : Answers [c! "parse-js.wasm"] (c! "/%77asm/parse-js.wasm") .notFound := (C90_answers parse_programs ⟨_, rfl⟩ (by decide) _).1 (by decide +kernel)

/-! ### Plain paths -/

/-- A query that can be part of a target. -/
def QueryOk (q : Str) : Prop := ∀ c ∈ q, 32 < c.toNat ∧ c.toNat ≠ 127 ∧ c.toNat < 256

theorem plain_char {c : Char} (h : c ∈ plainChars) : 32 < c.toNat ∧ c.toNat < 127 ∧ c ≠ '?' ∧ c ≠ '%' :=
  (by decide +kernel : ∀ c ∈ plainChars, 32 < c.toNat ∧ c.toNat < 127 ∧ c ≠ '?' ∧ c ≠ '%') c h

theorem decodes_plain {p : Str} (h : ∀ c ∈ p, c ∈ plainChars) : Decodes p p := by
  induction p with
  | nil => exact .nil
  | cons c p ih => exact .char _ _ _ (plain_char (h c List.mem_cons_self)).2.2.2 (ih (fun d hd => h d (List.mem_cons_of_mem _ hd)))

theorem written_plain {p : Str} (h : ∀ c ∈ p, c ∈ plainChars) : written p = p := by
  unfold written
  induction p with
  | nil => rfl
  | cons c p ih =>
    rw [List.flatMap_cons, ih (fun d hd => h d (List.mem_cons_of_mem _ hd)), if_pos (h c List.mem_cons_self)]
    rfl

theorem plain_target {p q : Str} (h : ∀ c ∈ p, c ∈ plainChars) (hq : QueryOk q) : Target (withQuery p q) p q p ∧ Target (p ++ '?' :: q) p q p := by
  have hm : '?' ∉ p := fun k => (plain_char (h _ k)).2.2.1 rfl
  have hb : ∀ c ∈ p ++ '?' :: q, 32 < c.toNat ∧ c.toNat ≠ 127 := by
    intro c hc
    rcases List.mem_append.1 hc with hc | hc
    · have := plain_char (h c hc); omega
    · rcases List.mem_cons.1 hc with rfl | hc
      · decide
      · exact ⟨(hq c hc).1, (hq c hc).2.1⟩
  refine ⟨⟨?_, hm, ?_, decodes_plain h⟩, ⟨.inr rfl, hm, hb, decodes_plain h⟩⟩
  · unfold withQuery; split
    · exact .inl ⟨rfl, by assumption⟩
    · exact .inr rfl
  · unfold withQuery; split
    · exact fun c hc => hb c (by simp [hc])
    · exact hb

theorem ascii_ok {q : Str} (h : QueryOk q) : QueryOk (asciiQuery q) := by
  intro c hc
  unfold asciiQuery at hc
  obtain ⟨d, hd, hc⟩ := List.mem_flatMap.1 hc
  have := h d hd
  split at hc
  · simp only [List.mem_singleton] at hc; subst hc; exact this
  · have key : ∀ n, n < 16 → 32 < ((c! "0123456789abcdef").getD n '?').toNat ∧ ((c! "0123456789abcdef").getD n '?').toNat < 127 := by decide
    simp only [List.mem_cons, List.not_mem_nil, or_false] at hc
    rcases hc with rfl | rfl | rfl
    · decide
    · have := key (d.toNat / 16) (by omega); omega
    · have := key (d.toNat % 16) (by omega); omega

/-- Elements of plain characters. -/
def PlainPath (es : List Str) : Prop := Elements es ∧ ∀ c ∈ pathText es, c ∈ plainChars

/-- A target for a path and a query. -/
def AsTarget (t : Str) (es : List Str) (q : Str) : Prop := t = withQuery (pathText es) q ∨ t = pathText es ++ '?' :: q

theorem asTarget_shape {t : Str} {es : List Str} {q : Str} (h : AsTarget t es q) : ∃ tail : Str, t = pathText es ++ tail ∧ (tail = [] ∨ tail.head? = some '?') := by
  rcases h with rfl | rfl
  · unfold withQuery
    split
    · exact ⟨[], by simp, .inl rfl⟩
    · exact ⟨_, rfl, .inr rfl⟩
  · exact ⟨_, rfl, .inr rfl⟩

theorem asTarget_bytes {t : Str} {es : List Str} {q : Str} (hp : PlainPath es) (hq : QueryOk q) (h : AsTarget t es q) :
    Target t (pathText es) q (pathText es) ∧ (∃ s, t = '/' :: s) ∧ ∀ c ∈ t, c.toNat < 256 := by
  have T := plain_target hp.2 hq
  have hs : ∃ s, pathText es = '/' :: s := by
    cases k : es with
    | nil => exact absurd k hp.1.1
    | cons e es => exact ⟨_, pathText_cons _ _⟩
  obtain ⟨s, hs⟩ := hs
  have hb : ∀ c ∈ pathText es ++ '?' :: q, c.toNat < 256 := by
    intro c hc
    rcases List.mem_append.1 hc with hc | hc
    · have := plain_char (hp.2 c hc); omega
    · rcases List.mem_cons.1 hc with rfl | hc
      · decide
      · exact (hq c hc).2.2
  rcases h with rfl | rfl
  · refine ⟨T.1, ?_, ?_⟩
    · unfold withQuery; split
      · exact ⟨s, hs⟩
      · exact ⟨_, by rw [hs]; rfl⟩
    · unfold withQuery; split
      · exact fun c hc => hb c (by simp [hc])
      · exact hb
  · exact ⟨T.2, ⟨_, by rw [hs]; rfl⟩, hb⟩

/-- What is found at a plain straight path, in either site. -/
def FoundAt (ps : List Str) (es : List Str) (site : Site) (f : Option Found) : Prop :=
  site = .www ∧ es.head? ≠ some (c! "wasm") ∧ Has wwwTable es f ∨ site = .wasm ∧ ∃ es', es' ≠ [] ∧ es = c! "wasm" :: es' ∧ Has (wasmTable ps) es' f

theorem foundAt_total (ps : List Str) {es : List Str} (h : es ≠ [c! "wasm"]) : ∃ site f, FoundAt ps es site f := by
  by_cases hw : es.head? = some (c! "wasm")
  · cases es with
    | nil => cases hw
    | cons e es =>
      cases hw
      obtain ⟨f, hf⟩ := has_total (wasmTable ps) es
      exact ⟨.wasm, f, .inr ⟨rfl, es, fun k => h (by rw [k]), rfl, hf⟩⟩
  · obtain ⟨f, hf⟩ := has_total wwwTable es
    exact ⟨.www, f, .inl ⟨rfl, hw, hf⟩⟩

theorem plain_found {ps : List Str} (H : Programs ps) {t : Str} {es : List Str} {q : Str} (hp : PlainPath es) (ht : Tidy es) (hq : QueryOk q)
    (h : AsTarget t es q) {site : Site} {f : Option Found} (hf : FoundAt ps es site f) : respond ps t = reply site q f := by
  obtain ⟨T, hs, hb⟩ := asTarget_bytes hp hq h
  rcases hf with ⟨rfl, hw, hf⟩ | ⟨rfl, es', h0, rfl, hf⟩
  · exact serves_of H hs hb (.www _ q es hp.1 T ht hw f hf)
  · refine serves_of H hs hb (.wasm _ q es' hp.1 h0 T ht ?_ f hf)
    obtain ⟨s, _, k⟩ := wasm_path h0
    rw [k]; exact ⟨s, rfl⟩

theorem plain_parts {st : List Str} {e : Str} (h : PlainPath (st ++ [e])) : '?' ∉ pathText st ++ e ∧ '/' ∉ e := by
  refine ⟨fun k => ?_, h.1.2 e (by simp)⟩
  have : '?' ∈ pathText (st ++ [e]) := by
    rw [pathText_last]
    rcases List.mem_append.1 k with k | k <;> simp [k]
  exact (plain_char (h.2 _ this)).2.2.1 rfl

theorem plain_init {st : List Str} {e : Str} (h : PlainPath (st ++ [e])) : PlainPath (st ++ [[]]) := by
  refine ⟨⟨by simp, ?_⟩, ?_⟩
  · intro x hx
    rcases List.mem_append.1 hx with hx | hx
    · exact h.1.2 x (by simp [hx])
    · simp only [List.mem_singleton] at hx; subst hx; simp
  · intro c hc
    refine h.2 c ?_
    rw [pathText_last] at hc ⊢
    rcases List.mem_append.1 hc with hc | hc
    · simp [hc]
    · simp only [List.mem_singleton] at hc; simp [hc]

theorem tidy_init {st : List Str} {e : Str} (h : Tidy (st ++ [e])) : Tidy (st ++ [[]]) := by
  refine ⟨?_, ?_⟩
  · have := h.1
    rw [List.dropLast_concat] at this ⊢
    exact this
  · intro x hx
    rw [List.getLast?_concat] at hx
    cases hx; exact .inl rfl

/-- "index.html" at the end. -/
theorem follow_here {t : Str} {st : List Str} {e q : Str} (hp : PlainPath (st ++ [e])) (h : AsTarget t (st ++ [e]) q) :
    Follows t (withQuery (c! "./") q) (withQuery (pathText (st ++ [[]])) q) := by
  obtain ⟨tail, rfl, htail⟩ := asTarget_shape h
  obtain ⟨h1, h2⟩ := plain_parts hp
  have := Follows.here (pathText st) e tail (if q = [] then [] else '?' :: q) h1 h2 htail
  rw [pathText_last, pathText_last, List.append_assoc, List.cons_append]
  unfold withQuery
  by_cases k : q = []
  · simpa [k] using this
  · simpa [k] using this

/-- A file with a slash at its end. -/
theorem follow_up {t : Str} {st : List Str} {n q : Str} (hp : PlainPath (st ++ [n] ++ [[]])) (h : AsTarget t (st ++ [n] ++ [[]]) q) :
    Follows t (withQuery (c! "../" ++ n) q) (withQuery (pathText (st ++ [n])) q) := by
  obtain ⟨tail, rfl, htail⟩ := asTarget_shape h
  obtain ⟨h1, _⟩ := plain_parts hp
  have h2 := hp.1.2 n (by simp)
  have := Follows.up (pathText st) n [] tail (n ++ if q = [] then [] else '?' :: q)
    (by rw [pathText_last] at h1; simp only [List.append_nil, List.mem_append, List.mem_cons, not_or] at h1 ⊢; exact ⟨h1.1, h1.2.2⟩) (by simpa using h2) htail
  rw [pathText_last, pathText_last]
  unfold withQuery
  by_cases k : q = []
  · simpa [k] using this
  · simpa [k] using this

/-- A directory without its slash. -/
theorem follow_below {t : Str} {n : Char} {m q : Str} (hn : n ≠ '.' ∧ n ≠ '/' ∧ n ≠ '?') (hp : PlainPath [n :: m]) (h : AsTarget t [n :: m] q) :
    Follows t (withQuery (n :: m ++ c! "/") q) (withQuery (pathText [n :: m, []]) q) := by
  obtain ⟨tail, rfl, htail⟩ := asTarget_shape h
  have h1 := plain_parts (st := []) hp
  have := Follows.below [] (n :: m) tail (m ++ c! "/" ++ if q = [] then [] else '?' :: q) (by simpa [pathText] using h1.1) h1.2 htail n hn
  unfold withQuery
  by_cases k : q = []
  · simpa [k, pathText] using this
  · simpa [k, pathText] using this

theorem done_of {ps : List Str} {t : Str} {site : Site} {q : Str} {f : Option Found} (h : respond ps t = reply site q f) (hf : ∀ l, f ≠ some (.to l)) :
    Reaches ps 0 t (reply site q f) := by
  refine .done t _ h ?_
  intro loc k
  match f, hf, k with
  | some (.to l), hf, _ => exact hf l rfl

theorem nil_last {st : List Str} : (st ++ [([] : Str)]).getLast? ≠ some (c! "index.html") := by
  rw [List.getLast?_concat]; intro k; cases k

theorem init_of {st a : List Str} (h : st ++ [[]] = a) : st = a.dropLast := by rw [← h, List.dropLast_concat]

/-- A redirection from a path with a slash at its end is one to a file. -/
theorem to_slashed {ps : List Str} (H : Programs ps) {st : List Str} {site : Site} {l : Str} (hf : FoundAt ps (st ++ [[]]) site (some (.to l))) :
    ∃ st' n, st = st' ++ [n] ∧ l = c! "../" ++ n ∧ ((∃ g, FoundAt ps (st' ++ [n]) site (some (.file g))) ∨ st' = [] ∧ n = c! "index.html" ∧ site = .www) := by
  rcases hf with ⟨rfl, hw, hf⟩ | ⟨rfl, es', h0, he, hf⟩
  · generalize hx : st ++ [[]] = x at hf hw
    generalize hy : some (Found.to l) = y at hf
    cases hf with
    | index es =>
      have := congrArg List.getLast? hx
      simp only [List.getLast?_concat] at this
      cases this
    | none => cases hy
    | row es g hi hm =>
      cases hy
      have hlast : x.getLast? = some [] := by rw [← hx, List.getLast?_concat]
      have hst := init_of hx
      unfold wwwTable at hm
      simp only [List.mem_cons, Prod.mk.injEq, List.not_mem_nil, or_false, reduceCtorEq, and_false, false_or, Found.to.injEq] at hm
      rcases hm with ⟨rfl, rfl⟩ | ⟨rfl, rfl⟩ | ⟨rfl, rfl⟩ | ⟨rfl, rfl⟩ | ⟨rfl, rfl⟩ | ⟨rfl, rfl⟩ | ⟨rfl, rfl⟩
      · exact ⟨[], c! "index.html", hst, rfl, .inr ⟨rfl, rfl, rfl⟩⟩
      · cases hlast
      · exact ⟨[c! "css"], c! "bootstrap.min.css", hst, rfl, .inl ⟨_, .inl ⟨rfl, by decide, .row _ (.file (c! "css/bootstrap.min.css")) (by decide) (by decide)⟩⟩⟩
      · exact ⟨[c! "css"], c! "index.css", hst, rfl, .inl ⟨_, .inl ⟨rfl, by decide, .row _ (.file (c! "css/index.css")) (by decide) (by decide)⟩⟩⟩
      · cases hlast
      · exact ⟨[c! "javascript"], c! "index.js", hst, rfl, .inl ⟨_, .inl ⟨rfl, by decide, .row _ (.file (c! "javascript/index.js")) (by decide) (by decide)⟩⟩⟩
      · exact ⟨[c! "javascript"], c! "sfomuseum.golang.wasm.bundle.js", hst, rfl,
          .inl ⟨_, .inl ⟨rfl, by decide, .row _ (.file (c! "javascript/sfomuseum.golang.wasm.bundle.js")) (by decide) (by decide)⟩⟩⟩
  · generalize hy : some (Found.to l) = y at hf
    cases hf with
    | index es =>
      have := congrArg List.getLast? he
      rw [List.getLast?_concat, ← List.cons_append, List.getLast?_concat] at this
      cases this
    | none => cases hy
    | row es g hi hm =>
      cases hy
      unfold wasmTable at hm
      rcases List.mem_cons.1 hm with hm | hm
      · cases hm
      · obtain ⟨p, hp, hm⟩ := List.mem_flatMap.1 hm
        simp only [List.mem_cons, List.not_mem_nil, or_false, Prod.mk.injEq, reduceCtorEq, and_false, false_or, Found.to.injEq] at hm
        obtain ⟨rfl, rfl⟩ := hm
        refine ⟨[c! "wasm"], p, init_of he, rfl, .inl ⟨p, .inr ⟨rfl, [p], by simp, rfl, .row _ (.file p) ?_ ?_⟩⟩⟩
        · intro k
          rw [List.getLast?_singleton] at k
          exact (program_shape H hp).2.2 (Option.some.inj k)
        · unfold wasmTable
          exact List.mem_cons_of_mem _ (List.mem_flatMap.2 ⟨p, hp, by simp⟩)

theorem to_or (f : Option Found) : (∀ l, f ≠ some (.to l)) ∨ ∃ l, f = some (.to l) := by
  match f with
  | none => exact .inl (fun l => by simp)
  | some (.file n) => exact .inl (fun l => by simp)
  | some (.names n) => exact .inl (fun l => by simp)
  | some (.to l) => exact .inr ⟨l, rfl⟩

theorem plain_front {st : List Str} {n : Str} (h : PlainPath (st ++ [n] ++ [[]])) : PlainPath (st ++ [n]) := by
  refine ⟨⟨by simp, fun e he => h.1.2 e (by simp at he ⊢; rcases he with he | he <;> simp [he])⟩, fun c hc => h.2 c ?_⟩
  rw [pathText_append]
  simp [hc]

theorem tidy_front {st : List Str} {n : Str} (h : Tidy (st ++ [n] ++ [[]])) : Tidy (st ++ [n]) := by
  have := h.1
  rw [List.dropLast_concat] at this
  refine ⟨fun e he => this e (by rw [List.dropLast_concat] at he; simp [he]), ?_⟩
  intro e he
  rw [List.getLast?_concat] at he
  cases he
  exact .inr (this n (by simp))

theorem home_reaches {ps : List Str} (H : Programs ps) {q : Str} (hq : QueryOk q) : Reaches ps 0 (withQuery (pathText [[]]) q) (.file .www (c! "index.html")) :=
  done_of (f := some (.file (c! "index.html"))) (site := .www) (q := q)
    (plain_found H (es := [[]]) ⟨⟨by decide, by decide⟩, by decide⟩ ⟨(by intro e he; cases he), (by intro e he; cases he; exact .inl rfl)⟩ hq (.inl rfl)
      (.inl ⟨rfl, by decide, .row _ _ (by decide) (by decide)⟩)) (by intro l k; cases k)

/-- From a plain straight path that ends in a slash: at most two redirections. -/
theorem slashed_reaches {ps : List Str} (H : Programs ps) {t : Str} {st : List Str} {q : Str} (hp : PlainPath (st ++ [[]])) (ht : Tidy (st ++ [[]])) (hq : QueryOk q)
    (h : AsTarget t (st ++ [[]]) q) : ∃ n r, n ≤ 2 ∧ Reaches ps n t r := by
  have hne : st ++ [[]] ≠ [c! "wasm"] := by
    intro k
    have := congrArg List.getLast? k
    rw [List.getLast?_concat] at this
    cases this
  obtain ⟨site, f, hf⟩ := foundAt_total ps hne
  have hr := plain_found H hp ht hq h hf
  rcases to_or f with hto | ⟨l, rfl⟩
  · exact ⟨0, _, by omega, done_of hr hto⟩
  · obtain ⟨st', n, rfl, rfl, k⟩ := to_slashed H hf
    have hfol := follow_up hp h
    rcases k with ⟨g, k⟩ | ⟨rfl, rfl, rfl⟩
    · have hr' := plain_found H (plain_front hp) (tidy_front ht) hq (.inl rfl) k
      exact ⟨1, _, by omega, .step 0 t _ _ _ hr hfol (done_of hr' (by intro l k; cases k))⟩
    · have hp' := plain_front (st := []) hp
      have ht' := tidy_front (st := []) ht
      have hr' := plain_found H hp' ht' hq (.inl rfl) (site := .www) (.inl ⟨rfl, by decide, .index []⟩)
      exact ⟨2, _, by omega, .step 1 t _ _ _ hr hfol (.step 0 _ _ _ _ hr' (follow_here (st := []) hp' (.inl rfl)) (home_reaches H hq))⟩

/-- From a plain straight path: at most three redirections. -/
theorem tidy_reaches {ps : List Str} (H : Programs ps) {t : Str} {es : List Str} {q : Str} (hp : PlainPath es) (ht : Tidy es) (hq : QueryOk q)
    (h : AsTarget t es q) (hne : es ≠ [c! "wasm"]) : ∃ n r, n ≤ 3 ∧ Reaches ps n t r := by
  obtain ⟨st, e, rfl⟩ : ∃ st' e, es = st' ++ [e] := ⟨es.dropLast, es.getLast hp.1.1, (List.dropLast_concat_getLast hp.1.1).symm⟩
  obtain ⟨site, f, hf⟩ := foundAt_total ps hne
  have hr := plain_found H hp ht hq h hf
  by_cases he : e = []
  · subst he
    obtain ⟨n, r, hn, k⟩ := slashed_reaches H hp ht hq h
    exact ⟨n, r, by omega, k⟩
  · rcases to_or f with hto | ⟨l, rfl⟩
    · exact ⟨0, _, by omega, done_of hr hto⟩
    · by_cases hi : e = c! "index.html"
      · subst hi
        have hl : l = c! "./" := by
          rcases hf with ⟨_, _, hf⟩ | ⟨_, es', h0, he, hf⟩
          · generalize hx : st ++ [c! "index.html"] = x at hf
            generalize hy : some (Found.to l) = y at hf
            cases hf with
            | index => cases hy; rfl
            | none => cases hy
            | row es g hi hm => exact absurd (by rw [← hx, List.getLast?_concat]) hi
          · generalize hy : some (Found.to l) = y at hf
            cases hf with
            | index => cases hy; rfl
            | none => cases hy
            | row es g hi hm =>
              have := congrArg List.getLast? he
              rw [List.getLast?_concat] at this
              cases es' with
              | nil => exact absurd rfl h0
              | cons x es' => rw [List.getLast?_cons_cons] at this; exact absurd this.symm hi
        subst hl
        obtain ⟨n, r, hn, k⟩ := slashed_reaches H (plain_init hp) (tidy_init ht) hq (.inl rfl)
        exact ⟨n + 1, r, by omega, .step n t _ _ _ hr (follow_here hp h) k⟩
      · -- a directory
        have hd : st = [] ∧ site = .www ∧ ((e = c! "css" ∧ l = c! "css/") ∨ (e = c! "javascript" ∧ l = c! "javascript/")) := by
          rcases hf with ⟨hs, hw, hf⟩ | ⟨_, es', h0, hes, hf⟩
          · generalize hx : st ++ [e] = x at hf hw
            generalize hy : some (Found.to l) = y at hf
            have hlast : x.getLast? = some e := by rw [← hx, List.getLast?_concat]
            have hst : st = x.dropLast := by rw [← hx, List.dropLast_concat]
            cases hf with
            | index es => exact absurd (by rw [List.getLast?_concat] at hlast; exact (Option.some.inj hlast).symm) hi
            | none => cases hy
            | row es g hi' hm =>
              cases hy
              unfold wwwTable at hm
              simp only [List.mem_cons, Prod.mk.injEq, List.not_mem_nil, or_false, reduceCtorEq, and_false, false_or, Found.to.injEq] at hm
              rcases hm with ⟨rfl, rfl⟩ | ⟨rfl, rfl⟩ | ⟨rfl, rfl⟩ | ⟨rfl, rfl⟩ | ⟨rfl, rfl⟩ | ⟨rfl, rfl⟩ | ⟨rfl, rfl⟩
              · exact absurd (Option.some.inj hlast).symm he
              · exact ⟨hst, hs, .inl ⟨(Option.some.inj hlast).symm, rfl⟩⟩
              · exact absurd (Option.some.inj hlast).symm he
              · exact absurd (Option.some.inj hlast).symm he
              · exact ⟨hst, hs, .inr ⟨(Option.some.inj hlast).symm, rfl⟩⟩
              · exact absurd (Option.some.inj hlast).symm he
              · exact absurd (Option.some.inj hlast).symm he
          · exfalso
            have hlast : es'.getLast? = some e := by
              have := congrArg List.getLast? hes
              rw [List.getLast?_concat] at this
              cases es' with
              | nil => exact absurd rfl h0
              | cons x es' => rw [List.getLast?_cons_cons] at this; exact this.symm
            generalize hy : some (Found.to l) = y at hf
            cases hf with
            | index es => exact hi (by rw [List.getLast?_concat] at hlast; exact (Option.some.inj hlast).symm)
            | none => cases hy
            | row es g hi' hm =>
              cases hy
              unfold wasmTable at hm
              rcases List.mem_cons.1 hm with hm | hm
              · cases hm
              · obtain ⟨p, hp', hm⟩ := List.mem_flatMap.1 hm
                simp only [List.mem_cons, List.not_mem_nil, or_false, Prod.mk.injEq, reduceCtorEq, and_false, false_or, Found.to.injEq] at hm
                obtain ⟨rfl, rfl⟩ := hm
                exact he (Option.some.inj hlast).symm
        obtain ⟨rfl, rfl, hd⟩ := hd
        rcases hd with ⟨rfl, rfl⟩ | ⟨rfl, rfl⟩
        · have hr' := plain_found H (es := [c! "css", []]) ⟨⟨by decide, by decide⟩, by decide⟩
            (by rw [tidy_iff (by decide)]; decide) hq (.inl rfl) (site := .www)
            (.inl ⟨rfl, by decide, .row _ (.names [c! "bootstrap.min.css", c! "index.css"]) (by decide) (by decide)⟩)
          exact ⟨1, _, by omega, .step 0 t _ _ _ hr (follow_below (by decide) hp h) (done_of hr' (by intro l k; cases k))⟩
        · have hr' := plain_found H (es := [c! "javascript", []]) ⟨⟨by decide, by decide⟩, by decide⟩
            (by rw [tidy_iff (by decide)]; decide) hq (.inl rfl) (site := .www)
            (.inl ⟨rfl, by decide, .row _ (.names [c! "index.js", c! "sfomuseum.golang.wasm.bundle.js"]) (by decide) (by decide)⟩)
          exact ⟨1, _, by omega, .step 0 t _ _ _ hr (follow_below (by decide) hp h) (done_of hr' (by intro l k; cases k))⟩

theorem straight_plain {es : List Str} (h : PlainPath es) : PlainPath (straight es) := by
  refine ⟨straight_elements h.1, ?_⟩
  have key : ∀ (es st : List Str), (∀ e ∈ es, ∀ c ∈ e, c ∈ plainChars) → (∀ e ∈ st, ∀ c ∈ e, c ∈ plainChars) → ∀ e ∈ walk st es, ∀ c ∈ e, c ∈ plainChars := by
    intro es
    induction es with
    | nil => intro st _ h; exact h
    | cons x es ih =>
      intro st h1 h2
      unfold walk
      refine ih _ (fun e he => h1 e (List.mem_cons_of_mem _ he)) ?_
      split
      · exact h2
      · split
        · exact fun e he => h2 e (List.dropLast_subset _ he)
        · intro e he
          rcases List.mem_append.1 he with he | he
          · exact h2 e he
          · simp only [List.mem_singleton] at he; subst he; exact h1 e List.mem_cons_self
  have h2 := key es [] (fun e he c hc => h.2 c (List.mem_flatMap.2 ⟨e, he, List.mem_cons_of_mem _ hc⟩)) (by intro e he; cases he)
  have h3 : ∀ e ∈ straight es, ∀ c ∈ e, c ∈ plainChars := by
    unfold straight
    split
    · intro e he
      rcases List.mem_append.1 he with he | he
      · exact h2 e he
      · simp only [List.mem_singleton] at he; subst he; intro c hc; cases hc
    · exact h2
  intro c hc
  obtain ⟨e, he, hc⟩ := List.mem_flatMap.1 hc
  rcases List.mem_cons.1 hc with rfl | hc
  · decide
  · exact h3 e he c hc

/-- The text of a straight path does not begin with two slashes. -/
theorem tidy_slash {es : List Str} (q : Str) (he : Elements es) (h : Tidy es) : ∃ s, withQuery (pathText es) q = '/' :: s ∧ s.head? ≠ some '/' := by
  cases es with
  | nil => exact absurd rfl he.1
  | cons e es =>
    have hh : (e ++ pathText es).head? ≠ some '/' := by
      cases e with
      | nil =>
        cases es with
        | nil => simp [pathText]
        | cons e' es => exact absurd rfl (h.1 [] (by simp)).1
      | cons c e =>
        intro k
        simp only [List.cons_append, List.head?_cons, Option.some.injEq] at k
        exact he.2 (c :: e) List.mem_cons_self (by rw [k]; exact List.mem_cons_self)
    unfold withQuery; split
    · exact ⟨_, pathText_cons _ _, hh⟩
    · refine ⟨e ++ pathText es ++ '?' :: q, by rw [pathText_cons]; rfl, ?_⟩
      rw [List.head?_append]
      cases hx : (e ++ pathText es).head? with
      | none => simp
      | some c => rw [hx] at hh; exact hh

/-- C90: whoever follows the redirections comes to an end, after four of them at the most.  The path
is one of characters that need no escape. -/
theorem C90_ends {ps : List Str} (H : Programs ps) {p q t : Str} (h0 : ∃ s, p = '/' :: s) (hp : ∀ c ∈ p, c ∈ plainChars) (hq : QueryOk q)
    (ht : t = p ∧ q = [] ∨ t = p ++ '?' :: q) : ∃ n r, n ≤ 4 ∧ Reaches ps n t r := by
  obtain ⟨s, rfl⟩ := h0
  obtain ⟨es, he, hes⟩ := elements_exist s
  rw [← hes] at hp ht
  have hP : PlainPath es := ⟨he, hp⟩
  have hA : AsTarget t es q := by
    rcases ht with ⟨rfl, rfl⟩ | rfl
    · exact .inl (by simp [withQuery])
    · exact .inr rfl
  obtain ⟨T, hs, hb⟩ := asTarget_bytes hP hq hA
  by_cases hw : straight es = [c! "wasm"]
  · have hr := serves_of H hs hb (.wasmDir _ q es he T hw)
    have hr' := plain_found H (es := [c! "wasm", []]) (q := asciiQuery q) ⟨⟨by decide, by decide⟩, by decide⟩
      (by rw [tidy_iff (by decide)]; decide) (ascii_ok hq) (.inl rfl) (site := .wasm)
      (.inr ⟨rfl, [[]], by decide, rfl, .row _ (.names ps) (by decide) (by unfold wasmTable; exact List.mem_cons_self)⟩)
    refine ⟨1, _, by omega, .step 0 t _ _ _ hr ?_ (done_of hr' (by intro l k; cases k))⟩
    obtain ⟨s, k, k'⟩ := tidy_slash (es := [c! "wasm", []]) (asciiQuery q) ⟨by decide, by decide⟩ (by rw [tidy_iff (by decide)]; decide)
    have e : withQuery (c! "/wasm/") (asciiQuery q) = withQuery (pathText [c! "wasm", []]) (asciiQuery q) := rfl
    rw [e, k]
    exact .absolute t s k'
  · by_cases hti : Tidy es
    · have := straight_of_tidy he.1 hti
      obtain ⟨n, r, hn, k⟩ := tidy_reaches H hP hti hq hA (fun k => hw (by rw [this, k]))
      exact ⟨n, r, by omega, k⟩
    · have hr := serves_of H hs hb (.straight _ q es he T hti hw)
      have hP' := straight_plain hP
      rw [written_plain hP'.2] at hr
      obtain ⟨n, r, hn, k⟩ := tidy_reaches H hP' (straight_tidy es) (ascii_ok hq) (.inl rfl) hw
      refine ⟨n + 1, r, by omega, .step n t _ _ _ hr ?_ k⟩
      obtain ⟨s, k, k'⟩ := tidy_slash (asciiQuery q) (straight_elements he) (straight_tidy es)
      rw [k]
      exact .absolute t s k'

/-- Three redirections, four with a slash too many. -/
example : respond [c! "parse-js.wasm"] (c! "//index.html/index.html?a") = .redirect (c! "/index.html/index.html?a") ∧
    respond [c! "parse-js.wasm"] (c! "/index.html/index.html?a") = .redirect (c! "./?a") ∧
    respond [c! "parse-js.wasm"] (c! "/index.html/?a") = .redirect (c! "../index.html?a") ∧
    respond [c! "parse-js.wasm"] (c! "/index.html?a") = .redirect (c! "./?a") ∧
    respond [c! "parse-js.wasm"] (c! "/?a") = .file .www (c! "index.html") := by decide +kernel
example : ∃ n r, n ≤ 4 ∧ Reaches [c! "parse-js.wasm"] n (c! "//index.html/index.html?a") r :=
  C90_ends (p := c! "//index.html/index.html") (q := c! "a") parse_programs ⟨_, rfl⟩ (by decide) (by unfold QueryOk; decide) (.inr rfl)

/-! ### The page -/

theorem decodes_slash {s : Str} (h : Decodes ('/' :: s) (c! "/")) : s = [] := by
  generalize hx : '/' :: s = x at h
  generalize hy : c! "/" = y at h
  cases h with
  | nil => cases hx
  | char c s p hc k =>
    cases hx; cases hy
    cases k with
    | nil => rfl
  | escape => cases hx

/-- C90: the page is there at the root, and nowhere else. -/
theorem C90_page {ps : List Str} (H : Programs ps) {t : Str} (ht : ∃ s, t = '/' :: s) (hb : ∀ c ∈ t, c.toNat < 256) :
    respond ps t = .file .www (c! "index.html") ↔ t = c! "/" ∨ ∃ q, QueryOk q ∧ t = c! "/?" ++ q := by
  constructor
  · intro h
    have h := (C90_answers H ht hb _).1 h
    generalize hr : Response.file .www (c! "index.html") = r at h
    cases h with
    | bad => cases hr
    | straight => cases hr
    | wasmDir => cases hr
    | wasmEscaped => cases hr
    | wasm raw q es he h0 T h hraw f hf =>
      match f, hr with
      | some (.file n), hr => cases hr
      | some (.names n), hr => cases hr
      | some (.to n), hr => cases hr
      | none, hr => cases hr
    | www raw q es he T h hw f hf =>
      cases hf with
      | index => cases hr
      | none => cases hr
      | row es f hi hm =>
        have key : ∀ x ∈ wwwTable, x.2 = .file (c! "index.html") → x.1 = [[]] := by decide
        have hf : f = .file (c! "index.html") := by
          match f, hr with
          | .file n, hr => cases hr; rfl
          | .names n, hr => cases hr
          | .to n, hr => cases hr
        have := key _ hm hf
        simp only at this
        subst this
        obtain ⟨s, hs⟩ := ht
        have hd := T.path
        rcases T.text with ⟨h1, _⟩ | h1
        · rw [← h1, hs] at hd
          rw [hs, decodes_slash hd]
          exact .inl rfl
        · cases raw with
          | nil => rw [hs] at h1; cases h1
          | cons c raw =>
            have : c = '/' := by rw [hs] at h1; cases h1; rfl
            subst this
            have := decodes_slash hd
            subst this
            refine .inr ⟨q, fun c hc => ?_, h1⟩
            have hm : c ∈ t := by rw [h1]; simp [hc]
            exact ⟨(T.black c hm).1, (T.black c hm).2, hb c hm⟩
  · intro h
    obtain ⟨q, hq, hA⟩ : ∃ q, QueryOk q ∧ AsTarget t [[]] q := by
      rcases h with rfl | ⟨q, hq, rfl⟩
      · exact ⟨[], (by intro c hc; cases hc), .inl rfl⟩
      · exact ⟨q, hq, .inr rfl⟩
    exact plain_found H (es := [[]]) ⟨⟨by decide, by decide⟩, by decide⟩ ⟨(by intro e he; cases he), (by intro e he; cases he; exact .inl rfl)⟩ hq hA
      (site := .www) (f := some (.file (c! "index.html"))) (.inl ⟨rfl, by decide, .row _ _ (by decide) (by decide)⟩)

example : QueryOk (c! "a=1985&b=%3F") ∧ respond [c! "parse-js.wasm"] (c! "/?a=1985&b=%3F") = .file .www (c! "index.html") ∧
    respond [c! "parse-js.wasm"] (c! "/index.html") ≠ .file .www (c! "index.html") := by
  refine ⟨?_, by decide +kernel, by decide +kernel⟩
  unfold QueryOk
  decide

/-- What the page refers to (app/server/www/index.html:6-7 and 38-39), and what its script asks for
(app/server/www/javascript/index.js:6). -/
def pageParts : List (Str × Site × Str) :=
  [ (c! "css/bootstrap.min.css", .www, c! "css/bootstrap.min.css"), (c! "css/index.css", .www, c! "css/index.css"),
    (c! "javascript/sfomuseum.golang.wasm.bundle.js", .www, c! "javascript/sfomuseum.golang.wasm.bundle.js"),
    (c! "javascript/index.js", .www, c! "javascript/index.js"), (c! "wasm/parse-js.wasm", .wasm, c! "parse-js.wasm") ]

/-- C90: from wherever the page is loaded, its parts are found, as long as parse-js.wasm has been
built. -/
theorem C90_parts {ps : List Str} (H : Programs ps) (hp : c! "parse-js.wasm" ∈ ps) {t : Str} (ht : ∃ s, t = '/' :: s) (hb : ∀ c ∈ t, c.toNat < 256)
    (h : respond ps t = .file .www (c! "index.html")) {ref : Str} {site : Site} {name : Str} (hr : (ref, site, name) ∈ pageParts) :
    ∃ t', Follows t ref t' ∧ respond ps t' = .file site name := by
  obtain ⟨tail, rfl, htail⟩ : ∃ tail : Str, t = [] ++ '/' :: ([] ++ tail) ∧ (tail = [] ∨ tail.head? = some '?') := by
    rcases (C90_page H ht hb).1 h with rfl | ⟨q, _, rfl⟩
    · exact ⟨[], rfl, .inl rfl⟩
    · exact ⟨'?' :: q, rfl, .inr rfl⟩
  have hq : QueryOk [] := by intro c hc; cases hc
  unfold pageParts at hr
  simp only [List.mem_cons, List.not_mem_nil, or_false, Prod.mk.injEq] at hr
  rcases hr with ⟨rfl, rfl, rfl⟩ | ⟨rfl, rfl, rfl⟩ | ⟨rfl, rfl, rfl⟩ | ⟨rfl, rfl, rfl⟩ | ⟨rfl, rfl, rfl⟩
  · exact ⟨_, .below [] [] tail _ (by decide) (by decide) htail _ (by decide),
      plain_found H (es := [c! "css", c! "bootstrap.min.css"]) (q := []) ⟨⟨by decide, by decide⟩, by decide⟩ (by rw [tidy_iff (by decide)]; decide) hq (.inl rfl)
        (site := .www) (f := some (.file (c! "css/bootstrap.min.css"))) (.inl ⟨rfl, by decide, .row _ _ (by decide) (by decide)⟩)⟩
  · exact ⟨_, .below [] [] tail _ (by decide) (by decide) htail _ (by decide),
      plain_found H (es := [c! "css", c! "index.css"]) (q := []) ⟨⟨by decide, by decide⟩, by decide⟩ (by rw [tidy_iff (by decide)]; decide) hq (.inl rfl)
        (site := .www) (f := some (.file (c! "css/index.css"))) (.inl ⟨rfl, by decide, .row _ _ (by decide) (by decide)⟩)⟩
  · exact ⟨_, .below [] [] tail _ (by decide) (by decide) htail _ (by decide),
      plain_found H (es := [c! "javascript", c! "sfomuseum.golang.wasm.bundle.js"]) (q := []) ⟨⟨by decide, by decide⟩, by decide⟩ (by rw [tidy_iff (by decide)]; decide) hq (.inl rfl)
        (site := .www) (f := some (.file (c! "javascript/sfomuseum.golang.wasm.bundle.js"))) (.inl ⟨rfl, by decide, .row _ _ (by decide) (by decide)⟩)⟩
  · exact ⟨_, .below [] [] tail _ (by decide) (by decide) htail _ (by decide),
      plain_found H (es := [c! "javascript", c! "index.js"]) (q := []) ⟨⟨by decide, by decide⟩, by decide⟩ (by rw [tidy_iff (by decide)]; decide) hq (.inl rfl)
        (site := .www) (f := some (.file (c! "javascript/index.js"))) (.inl ⟨rfl, by decide, .row _ _ (by decide) (by decide)⟩)⟩
  · exact ⟨_, .below [] [] tail _ (by decide) (by decide) htail _ (by decide),
      plain_found H (es := [c! "wasm", c! "parse-js.wasm"]) (q := []) ⟨⟨by decide, by decide⟩, by decide⟩ (by rw [tidy_iff (by decide)]; decide) hq (.inl rfl)
        (site := .wasm) (f := some (.file (c! "parse-js.wasm"))) (.inr ⟨rfl, [c! "parse-js.wasm"], by decide, rfl, .row _ _ (by decide)
          (by unfold wasmTable; exact List.mem_cons_of_mem _ (List.mem_flatMap.2 ⟨_, hp, by simp⟩))⟩)⟩

example : respond [c! "parse-js.wasm"] (c! "/?raw=1985") = .file .www (c! "index.html") ∧ respond [c! "parse-js.wasm"] (c! "/css/index.css") = .file .www (c! "css/index.css") := by
  decide +kernel

end EDTF
