/-
The specification of what the server of cmd/server-wasm answers: what a target means, which path
it leads to, and the two tables of the files.
-/
import Verif.Serve
import Verif.SpecLang
namespace EDTF.Spec

/-! ### Targets -/

/-- One digit of base 16. -/
def HexOf (c : Char) (n : Nat) : Prop :=
  (c! "0123456789abcdef")[n]? = some c ∨ (c! "0123456789ABCDEF")[n]? = some c

/-- The text `s` stands for the path `p`: `%` and two digits for any byte, other characters for
themselves. -/
inductive Decodes : Str → Str → Prop
  | nil : Decodes [] []
  | char (c : Char) (s p : Str) (h : c ≠ '%') (k : Decodes s p) : Decodes (c :: s) (c :: p)
  | escape (a b : Char) (x y : Nat) (s p : Str) (ha : HexOf a x) (hb : HexOf b y) (k : Decodes s p) :
      Decodes ('%' :: a :: b :: s) (Char.ofNat (16 * x + y) :: p)

/-- The target `t` has the path `p`, written `raw`, and the query `q`. -/
structure Target (t raw q p : Str) : Prop where
  text : t = raw ∧ q = [] ∨ t = raw ++ '?' :: q
  mark : '?' ∉ raw
  black : ∀ c ∈ t, 32 < c.toNat ∧ c.toNat ≠ 127
  path : Decodes raw p

/-! ### Paths -/

/-- The path with these elements. -/
def pathText (es : List Str) : Str := es.flatMap ('/' :: ·)

/-- The elements of a path: they have no slash, and there is at least one. -/
def Elements (es : List Str) : Prop := es ≠ [] ∧ ∀ e ∈ es, '/' ∉ e

/-- An element that is the name of something. -/
def Proper (e : Str) : Prop := e ≠ [] ∧ e ≠ c! "." ∧ e ≠ c! ".."

/-- The path ends in a slash. -/
def Slashed (es : List Str) : Prop := es.getLast? = some []

/-- A path without detours: its elements are names, except that the last one may be empty. -/
def Tidy (es : List Str) : Prop := (∀ e ∈ es.dropLast, Proper e) ∧ ∀ e, es.getLast? = some e → e = [] ∨ Proper e

/-- Where one gets by walking along the elements, from the root. -/
def walk : List Str → List Str → List Str
  | at_, [] => at_
  | at_, e :: es => walk (if e = [] ∨ e = c! "." then at_ else if e = c! ".." then at_.dropLast else at_ ++ [e]) es

instance (es : List Str) : Decidable (Slashed es) := by unfold Slashed; infer_instance

/-- The path without detours to the same place; a slash at the end stays. -/
def straight (es : List Str) : List Str :=
  if walk [] es = [] ∨ Slashed es then walk [] es ++ [[]] else walk [] es

/-! ### Locations -/

/-- The characters that are not escaped in a path. -/
def plainChars : Str := c! "ABCDEFGHIJKLMNOPQRSTUVWXYZabcdefghijklmnopqrstuvwxyz0123456789-_.~$&+,/:;=@"

/-- A path as it is written in a location. -/
def written (p : Str) : Str :=
  p.flatMap (fun c => if c ∈ plainChars then [c]
    else ['%', (c! "0123456789ABCDEF").getD (c.toNat / 16) '?', (c! "0123456789ABCDEF").getD (c.toNat % 16) '?'])

/-- A query as it is written in the location of a straight path. -/
def asciiQuery (q : Str) : Str :=
  q.flatMap (fun c => if c.toNat < 128 then [c]
    else ['%', (c! "0123456789abcdef").getD (c.toNat / 16) '?', (c! "0123456789abcdef").getD (c.toNat % 16) '?'])

/-- A location and a query. -/
def withQuery (loc q : Str) : Str := if q = [] then loc else loc ++ '?' :: q

/-! ### Files -/

/-- What is found at a straight path. -/
inductive Found where
  | file (name : Str)
  | names (ns : List Str)
  | to (loc : Str)
  deriving DecidableEq, Repr

/-- The paths of the page and its parts, apart from those that end in "index.html". -/
def wwwTable : List (List Str × Found) :=
  [ ([c! ""], .file (c! "index.html")),
    ([c! "index.html", c! ""], .to (c! "../index.html")),
    ([c! "css"], .to (c! "css/")),
    ([c! "css", c! ""], .names [c! "bootstrap.min.css", c! "index.css"]),
    ([c! "css", c! "bootstrap.min.css"], .file (c! "css/bootstrap.min.css")),
    ([c! "css", c! "bootstrap.min.css", c! ""], .to (c! "../bootstrap.min.css")),
    ([c! "css", c! "index.css"], .file (c! "css/index.css")),
    ([c! "css", c! "index.css", c! ""], .to (c! "../index.css")),
    ([c! "javascript"], .to (c! "javascript/")),
    ([c! "javascript", c! ""], .names [c! "index.js", c! "sfomuseum.golang.wasm.bundle.js"]),
    ([c! "javascript", c! "index.js"], .file (c! "javascript/index.js")),
    ([c! "javascript", c! "index.js", c! ""], .to (c! "../index.js")),
    ([c! "javascript", c! "sfomuseum.golang.wasm.bundle.js"], .file (c! "javascript/sfomuseum.golang.wasm.bundle.js")),
    ([c! "javascript", c! "sfomuseum.golang.wasm.bundle.js", c! ""], .to (c! "../sfomuseum.golang.wasm.bundle.js")) ]

/-- The names of the programs: file names that end in ".wasm", in their order, none twice. -/
structure Programs (ps : List Str) : Prop where
  order : ps.Pairwise (fun a b => ¬ TextLe b a)
  name : ∀ p ∈ ps, '/' ∉ p ∧ ∃ r, p = r ++ c! ".wasm"

/-- The paths of the programs, below "/wasm/", apart from those that end in "index.html". -/
def wasmTable (ps : List Str) : List (List Str × Found) :=
  ([[]], .names ps) :: ps.flatMap (fun p => [([p], .file p), ([p, []], .to (c! "../" ++ p))])

/-- What a table has at a path: "index.html" at the end leads to the directory, wherever it is. -/
inductive Has (table : List (List Str × Found)) : List Str → Option Found → Prop
  | index (es : List Str) : Has table (es ++ [c! "index.html"]) (some (.to (c! "./")))
  | row (es : List Str) (f : Found) (hi : es.getLast? ≠ some (c! "index.html")) (h : (es, f) ∈ table) : Has table es (some f)
  | none (es : List Str) (hi : es.getLast? ≠ some (c! "index.html")) (h : ∀ f, (es, f) ∉ table) : Has table es none

/-- The answer for what is found. -/
def reply (site : Site) (q : Str) : Option Found → Response
  | some (.file n) => .file site n
  | some (.names ns) => .listing site ns
  | some (.to loc) => .redirect (withQuery loc q)
  | none => .notFound

/-- The answer `r` to the target `t`, which begins with a slash. -/
inductive Answers (ps : List Str) (t : Str) : Response → Prop
  /-- blanks, control characters, or a `%` that is not an escape -/
  | bad (h : ¬ ∃ raw q p, Target t raw q p) : Answers ps t .bad
  /-- a path with detours -/
  | straight (raw q : Str) (es : List Str) (he : Elements es) (T : Target t raw q (pathText es)) (h : ¬ Tidy es) (hw : straight es ≠ [c! "wasm"]) :
      Answers ps t (.redirect (withQuery (written (pathText (straight es))) (asciiQuery q)))
  /-- the directory of the programs without its slash -/
  | wasmDir (raw q : Str) (es : List Str) (he : Elements es) (T : Target t raw q (pathText es)) (hw : straight es = [c! "wasm"]) :
      Answers ps t (.redirect (withQuery (c! "/wasm/") (asciiQuery q)))
  /-- the programs -/
  | wasm (raw q : Str) (es : List Str) (he : Elements (c! "wasm" :: es)) (h0 : es ≠ []) (T : Target t raw q (pathText (c! "wasm" :: es)))
      (h : Tidy (c! "wasm" :: es)) (hr : c! "/wasm/" <+: raw) (f : Option Found) (hf : Has (wasmTable ps) es f) : Answers ps t (reply .wasm q f)
  /-- the programs, with an escape in "/wasm/" -/
  | wasmEscaped (raw q : Str) (es : List Str) (he : Elements (c! "wasm" :: es)) (h0 : es ≠ []) (T : Target t raw q (pathText (c! "wasm" :: es)))
      (h : Tidy (c! "wasm" :: es)) (hr : ¬ c! "/wasm/" <+: raw) : Answers ps t .notFound
  /-- the page -/
  | www (raw q : Str) (es : List Str) (he : Elements es) (T : Target t raw q (pathText es)) (h : Tidy es) (hw : es.head? ≠ some (c! "wasm"))
      (f : Option Found) (hf : Has wwwTable es f) : Answers ps t (reply .www q f)

/-! ### Following a location -/

/-- A browser that has asked for the target `t` and is given the location `loc` asks for `t'` next
(for the kinds of locations that come up). -/
inductive Follows : Str → Str → Str → Prop
  | absolute (t s : Str) (h : s.head? ≠ some '/') : Follows t ('/' :: s) ('/' :: s)
  | here (d e tail x : Str) (h1 : '?' ∉ d ++ e) (h2 : '/' ∉ e) (h3 : tail = [] ∨ tail.head? = some '?') :
      Follows (d ++ '/' :: (e ++ tail)) (c! "./" ++ x) (d ++ '/' :: x)
  | up (d e e' tail x : Str) (h1 : '?' ∉ d ++ e ++ e') (h2 : '/' ∉ e ++ e') (h3 : tail = [] ∨ tail.head? = some '?') :
      Follows (d ++ '/' :: (e ++ '/' :: (e' ++ tail))) (c! "../" ++ x) (d ++ '/' :: x)
  | below (d e tail x : Str) (h1 : '?' ∉ d ++ e) (h2 : '/' ∉ e) (h3 : tail = [] ∨ tail.head? = some '?') (c : Char)
      (h4 : c ≠ '.' ∧ c ≠ '/' ∧ c ≠ '?') : Follows (d ++ '/' :: (e ++ tail)) (c :: x) (d ++ '/' :: c :: x)

/-- After `n` redirections the target `t` leads to the answer `r`. -/
inductive Reaches (ps : List Str) : Nat → Str → Response → Prop
  | done (t : Str) (r : Response) (h : respond ps t = r) (k : ∀ loc, r ≠ .redirect loc) : Reaches ps 0 t r
  | step (n : Nat) (t loc t' : Str) (r : Response) (h : respond ps t = .redirect loc) (k : Follows t loc t') (m : Reaches ps n t' r) :
      Reaches ps (n + 1) t r

end EDTF.Spec
