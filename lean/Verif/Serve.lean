/-
cmd/server-wasm: which of the embedded files a request gets.  The two file servers and the
multiplexer are those of the standard library (net/http, net/url, path, embed).  The go line of
/repo/go.mod is 1.16, which sets the default GODEBUG httpmuxgo121=1, so that the multiplexer is the
one before Go 1.22.

A request here is one of HTTP/1.1 with a method other than CONNECT and without conditions or ranges;
only its target matters, the text between the method and the protocol.  Each character of a target
stands for one byte.
-/
import Verif.GoStr
namespace EDTF

/-! ### net/url -/

/-- net/url: stringContainsCTLByte -/
def hasCTL (s : Str) : Bool := s.any (fun c => decide (c.toNat < 32) || decide (c.toNat = 127))

/-- net/url: ishex and unhex -/
def unhex (c : Char) : Option Nat :=
  if 48 ≤ c.toNat ∧ c.toNat ≤ 57 then some (c.toNat - 48)
  else if 97 ≤ c.toNat ∧ c.toNat ≤ 102 then some (c.toNat - 87)
  else if 65 ≤ c.toNat ∧ c.toNat ≤ 70 then some (c.toNat - 55)
  else none

/-- net/url: unescape in the mode encodePath -/
def unescapePath : Str → Option Str
  | [] => some []
  | c :: s =>
    if c = '%' then
      match s with
      | a :: b :: r =>
        match unhex a, unhex b with
        | some x, some y => (unescapePath r).map (Char.ofNat (16 * x + y) :: ·)
        | _, _ => none
      | _ => none
    else (unescapePath s).map (c :: ·)

/-- net/url: not shouldEscape, in the mode encodePath -/
def pathChar (c : Char) : Bool :=
  (decide (97 ≤ c.toNat) && decide (c.toNat ≤ 122)) || (decide (65 ≤ c.toNat) && decide (c.toNat ≤ 90)) ||
    (decide (48 ≤ c.toNat) && decide (c.toNat ≤ 57)) || (c! "-_.~$&+,/:;=@").contains c

/-- net/url: upperhex -/
def upperHex (n : Nat) : Char := if n < 10 then Char.ofNat (48 + n) else Char.ofNat (55 + n)

/-- net/url: escape in the mode encodePath -/
def escapePath (s : Str) : Str :=
  s.flatMap (fun c => if pathChar c then [c] else ['%', upperHex (c.toNat / 16), upperHex (c.toNat % 16)])

/-- The fields of url.URL that are used: Path, RawPath (empty if the text of the path is the usual
one) and RawQuery. -/
structure Url where
  path : Str
  rawPath : Str
  rawQuery : Str
  deriving DecidableEq, Repr

/-- strings.Cut(s, "?") -/
def cutQuery : Str → Str × Str
  | [] => ([], [])
  | c :: s => if c = '?' then ([], s) else (c :: (cutQuery s).1, (cutQuery s).2)

/-- net/url: ParseRequestURI for a text that begins with a slash (setPath, and the query after the
first question mark). -/
def parseRequestURI (t : Str) : Option Url :=
  if hasCTL t then none
  else
    let (rest, query) := cutQuery t
    match unescapePath rest with
    | none => none
    | some p => some ⟨p, if rest = escapePath p then [] else rest, query⟩

/-! ### path -/

/-- path.Clean: "remove to last /", on the reversed buffer of a rooted path; `out.w > dotdot` holds
before. -/
def cleanBack : Str → Str
  | [] => []
  | c :: out => if out.length ≤ 1 then out else if c = '/' then out else cleanBack out

/-- path.Clean: copying one element. -/
def cleanCopy : Str → Str → Str × Str
  | out, [] => (out, [])
  | out, c :: s => if c = '/' then (out, c :: s) else cleanCopy (c :: out) s

/-- path.Clean: the loop, for a rooted path, on the reversed buffer; the first argument bounds the
number of rounds. -/
def cleanLoop : Nat → Str → Str → Str
  | 0, out, _ => out
  | _ + 1, out, [] => out
  | n + 1, out, c :: s =>
    if c = '/' then cleanLoop n out s
    else if c = '.' ∧ (s = [] ∨ s.head? = some '/') then cleanLoop n out s
    else if c = '.' ∧ s.head? = some '.' ∧ (s.drop 1 = [] ∨ (s.drop 1).head? = some '/') then
      cleanLoop n (if out.length > 1 then cleanBack out else out) (s.drop 1)
    else
      let (out, s) := cleanCopy (if out.length ≠ 1 then '/' :: out else out) (c :: s)
      cleanLoop n out s

/-- path.Clean of a path that begins with a slash. -/
def pathClean (p : Str) : Str := (cleanLoop p.length ['/'] (p.drop 1)).reverse

/-- path.Base of a path that is not empty: trailing slashes are dropped, and then all up to the last
slash; what is left of slashes only is a slash. -/
def pathBase (p : Str) : Str :=
  let r := p.reverse.dropWhile (· = '/')
  let b := (r.takeWhile (· ≠ '/')).reverse
  if b = [] then c! "/" else b

/-! ### net/http -/

/-- The two sets of embedded files. -/
inductive Site where
  | www
  | wasm
  deriving DecidableEq, Repr

/-- What is answered: status 400, a file, the names in a directory, status 301 with a location, or
status 404.  `otherForm` stands for the targets that do not begin with a slash; they are not
described. -/
inductive Response where
  | bad
  | file (site : Site) (name : Str)
  | listing (site : Site) (names : List Str)
  | redirect (location : Str)
  | notFound
  | otherForm
  deriving DecidableEq, Repr

/-- app/server/www/www.go:7: the files that the patterns match. -/
def wwwFiles : List Str :=
  [c! "css/bootstrap.min.css", c! "css/index.css", c! "index.html", c! "javascript/index.js",
    c! "javascript/sfomuseum.golang.wasm.bundle.js"]

/-- The embedded files of a site.  Those of wasm/wasm.go:7 are the programs that have been built. -/
def siteFiles (programs : List Str) : Site → List Str
  | .www => wwwFiles
  | .wasm => programs

/-- embed: a name that is a directory. -/
def isDirName (files : List Str) (name : Str) : Bool :=
  name = c! "." || files.any (fun f => hasPrefix f (name ++ c! "/"))

/-- net/http: dirList, the names in a directory; those of directories end in a slash. -/
def dirNames (files : List Str) (name : Str) : List Str :=
  let pre := if name = c! "." then [] else name ++ c! "/"
  let below := (files.filter (hasPrefix · pre)).map (fun f =>
    let r := f.drop pre.length
    if r.contains '/' then r.takeWhile (· ≠ '/') ++ c! "/" else r)
  sortStrings below.eraseDups

/-- net/http: ioFS.Open, the name in the embedded files. -/
def fsName (name : Str) : Str := if name = c! "/" then c! "." else if hasPrefix name (c! "/") then name.drop 1 else name

/-- net/http: localRedirect -/
def localRedirect (u : Url) (loc : Str) : Response :=
  .redirect (if u.rawQuery = [] then loc else loc ++ c! "?" ++ u.rawQuery)

/-- net/http: serveFile, with `redirect` set.  (The error for a path of slashes that is a file
cannot come up, as the root of a site is a directory.) -/
def serveFile (files : List Str) (site : Site) (u : Url) (name : Str) : Response :=
  if hasSuffix u.path (c! "/index.html") then localRedirect u (c! "./")
  else
    let f := fsName name
    if isDirName files f then
      if ¬ hasSuffix u.path (c! "/") then localRedirect u (pathBase u.path ++ c! "/")
      else
        let index := fsName ((if hasSuffix name (c! "/") then name.dropLast else name) ++ c! "/index.html")
        if files.contains index then .file site index
        else .listing site (dirNames files f)
    else if files.contains f then
      if hasSuffix u.path (c! "/") then localRedirect u (c! "../" ++ pathBase u.path)
      else .file site f
    else .notFound

/-- net/http: fileHandler.ServeHTTP -/
def fileServer (programs : List Str) (site : Site) (u : Url) : Response :=
  let u := if hasPrefix u.path (c! "/") then u else { u with path := '/' :: u.path }
  serveFile (siteFiles programs site) site u (pathClean u.path)

/-- net/http: StripPrefix -/
def stripPrefix (pre : Str) (h : Url → Response) (u : Url) : Response :=
  if hasPrefix u.path pre ∧ (u.rawPath = [] ∨ hasPrefix u.rawPath pre) then
    h { u with path := u.path.drop pre.length, rawPath := if u.rawPath = [] then [] else u.rawPath.drop pre.length }
  else .notFound

/-- net/http: cleanPath -/
def cleanPath (p : Str) : Str :=
  if p = [] then c! "/"
  else
    let p := if hasPrefix p (c! "/") then p else '/' :: p
    let np := pathClean p
    if hasSuffix p (c! "/") ∧ np ≠ c! "/" then np ++ c! "/" else np

/-- The text of a number in base 16, for hexEscapeNonASCII; the bytes are above 127. -/
def lowerHex (n : Nat) : Char := if n < 10 then Char.ofNat (48 + n) else Char.ofNat (87 + n)

/-- net/http: hexEscapeNonASCII -/
def hexEscapeNonASCII (s : Str) : Str :=
  s.flatMap (fun c => if c.toNat < 128 then [c] else ['%', lowerHex (c.toNat / 16), lowerHex (c.toNat % 16)])

/-- net/http: RedirectHandler with a URL made of a clean path and the query (URL.String, Redirect). -/
def redirectTo (path query : Str) : Response :=
  .redirect (hexEscapeNonASCII (escapePath path ++ if query = [] then [] else c! "?" ++ query))

/-- cmd/server-wasm/main.go:23-32, with serveMux121.ServeHTTP of net/http: a path that is not clean
is sent to the clean one, "/wasm" to "/wasm/"; of the two patterns the longer one is preferred. -/
def serveMux (programs : List Str) (u : Url) : Response :=
  let path := cleanPath u.path
  if path = c! "/wasm" then redirectTo (path ++ c! "/") u.rawQuery
  else if path ≠ u.path then redirectTo path u.rawQuery
  else if hasPrefix path (c! "/wasm/") then stripPrefix (c! "/wasm/") (fileServer programs .wasm) u
  else fileServer programs .www u

/-- The answer to a request for a target.  The first line of a request is split at blanks, so that
one with a blank in the target is malformed. -/
def respond (programs : List Str) (t : Str) : Response :=
  if ¬ hasPrefix t (c! "/") then .otherForm
  else if t.contains ' ' then .bad
  else match parseRequestURI t with
    | none => .bad
    | some u => serveMux programs u

end EDTF
