/-
cmd/server-wasm: its flags, the address it listens on, and how it ends before it reaches the
network.  What is served is in Verif.Serve.
-/
import Verif.Stderr
namespace EDTF

/-! ### strconv.ParseInt(s, 0, 64) -/

/-- How strconv reads a number. -/
inductive Num (α : Type) where
  | ok (a : α)
  | syntax
  | range
  deriving DecidableEq, Repr

/-- strconv: a digit of any base, in ParseUint. -/
def digit36 (c : Char) : Option Nat :=
  if isDig c then some (digVal c)
  else if 97 ≤ c.toNat ∧ c.toNat ≤ 122 then some (c.toNat - 87)
  else if 65 ≤ c.toNat ∧ c.toNat ≤ 90 then some (c.toNat - 55)
  else none

/-- The loop of strconv.ParseUint for base 0 and 64 bits: the number so far, and whether there
was an underscore. -/
def uintDigits (base : Nat) : Nat → Bool → Str → Num (Nat × Bool)
  | n, u, [] => .ok (n, u)
  | n, u, c :: s =>
    if c = '_' then uintDigits base n true s
    else match digit36 c with
      | none => .syntax
      | some d =>
        if base ≤ d then .syntax
        else if 2 ^ 64 ≤ base * n + d then .range
        else uintDigits base (base * n + d) u s

/-- The base in strconv.ParseUint, and the digits. -/
def uintBase : Str → Nat × Str
  | '0' :: x :: c :: r =>
    if x = 'b' ∨ x = 'B' then (2, c :: r)
    else if x = 'o' ∨ x = 'O' then (8, c :: r)
    else if x = 'x' ∨ x = 'X' then (16, c :: r)
    else (8, x :: c :: r)
  | '0' :: r => (8, r)
  | s => (10, s)

/-- The loop of strconv: underscoreOK. -/
def underscoreLoop (hex : Bool) : Char → Str → Bool
  | saw, [] => saw ≠ '_'
  | saw, c :: s =>
    if isDig c || (hex && ((97 ≤ c.toNat && c.toNat ≤ 102) || (65 ≤ c.toNat && c.toNat ≤ 70))) then underscoreLoop hex '0' s
    else if c = '_' then (if saw ≠ '0' then false else underscoreLoop hex '_' s)
    else if saw = '_' then false
    else underscoreLoop hex '!' s

/-- strconv: underscoreOK -/
def underscoreOK (s : Str) : Bool :=
  let s := match s with
    | '-' :: t => t
    | '+' :: t => t
    | t => t
  match s with
  | '0' :: x :: r =>
    if x = 'b' ∨ x = 'B' ∨ x = 'o' ∨ x = 'O' ∨ x = 'x' ∨ x = 'X' then underscoreLoop (x = 'x' ∨ x = 'X') '0' r
    else underscoreLoop false '^' ('0' :: x :: r)
  | t => underscoreLoop false '^' t

/-- strconv.ParseUint(s, 0, 64) -/
def parseUint0 (s : Str) : Num Nat :=
  if s = [] then .syntax
  else match uintDigits (uintBase s).1 0 false (uintBase s).2 with
    | .syntax => .syntax
    | .range => .range
    | .ok (n, u) => if u && !underscoreOK s then .syntax else .ok n

/-- strconv.ParseInt(s, 0, 64) -/
def parseInt0 (s : Str) : Num Int :=
  let go (neg : Bool) (t : Str) : Num Int :=
    match parseUint0 t with
    | .syntax => .syntax
    | .range => .range
    | .ok n =>
      if !neg && 2 ^ 63 ≤ n then .range
      else if neg && 2 ^ 63 < n then .range
      else .ok (if neg then -(n : Int) else n)
  match s with
  | '+' :: t => go false t
  | '-' :: t => go true t
  | t => go false t

/-! ### The flags -/

/-- cmd/server-wasm/main.go:15-16: the variables of the flags. -/
structure ServerOpts where
  host : Str
  port : Int
  deriving DecidableEq, Repr

/-- cmd/server-wasm/main.go:18-19: the defaults. -/
def serverDefaults : ServerOpts := ⟨c! "localhost", 8080⟩

/-- `flag.Usage` with `flag.PrintDefaults` for the two flags (cmd/server-wasm/main.go:18-19). -/
def serverUsage (name : Str) : Str :=
  c! "Usage of " ++ name ++ c! ":\n" ++
  c! "  -host string\n    \tThe host to serve requests from (default \"localhost\")\n" ++
  c! "  -port int\n    \tThe port to serve requests from (default 8080)\n"

/-- An argument as `FlagSet.parseOne` sees it. -/
inductive FlagWord where
  | operand
  | dashes
  | bad
  | flag (name : Str) (value : Option Str)
  deriving DecidableEq, Repr

/-- What comes after the first `=`. -/
def flagValue : Str → Option Str
  | [] => none
  | c :: s => if c = '=' then some s else flagValue s

/-- The first half of `FlagSet.parseOne`. -/
def flagWord (s : Str) : FlagWord :=
  let named (n : Str) : FlagWord := .flag (flagName n) (flagValue n)
  match s with
  | '-' :: '-' :: [] => .dashes
  | '-' :: '-' :: c :: r => if c = '-' ∨ c = '=' then .bad else named (c :: r)
  | '-' :: c :: r => if c = '=' then .bad else named (c :: r)
  | _ => .operand

/-- The `Set` methods of the two flags: a string is kept, and a number is read by
strconv.ParseInt, whose errors package flag shortens. -/
def serverSet (o : ServerOpts) (name value : Str) : ServerOpts ⊕ Str :=
  if name = c! "host" then .inl { o with host := value }
  else match parseInt0 value with
    | .ok v => .inl { o with port := v }
    | .syntax => .inr (c! "parse error")
    | .range => .inr (c! "value out of range")

/-- `FlagSet.failf` followed by the end of the program. -/
def flagFail (usage m : Str) : ServerOpts ⊕ (Nat × Str) := .inr (2, m ++ c! "\n" ++ usage)

/-- `flag.Parse` with the two flags: the values, or the end with a status and a text. -/
def serverFlags (usage : Str) : List Str → ServerOpts → ServerOpts ⊕ (Nat × Str)
  | [], o => .inl o
  | s :: as, o =>
    match flagWord s with
    | .operand => .inl o
    | .dashes => .inl o
    | .bad => flagFail usage (c! "bad flag syntax: " ++ s)
    | .flag n v =>
      if n = c! "host" ∨ n = c! "port" then
        match v, as with
        | some v, as =>
          match serverSet o n v with
          | .inl o => serverFlags usage as o
          | .inr m => flagFail usage (c! "invalid value " ++ quoteGo v ++ c! " for flag -" ++ n ++ c! ": " ++ m)
        | none, v :: as =>
          match serverSet o n v with
          | .inl o => serverFlags usage as o
          | .inr m => flagFail usage (c! "invalid value " ++ quoteGo v ++ c! " for flag -" ++ n ++ c! ": " ++ m)
        | none, [] => flagFail usage (c! "flag needs an argument: -" ++ n)
      else if n = c! "help" ∨ n = c! "h" then .inr (0, usage)
      else flagFail usage (c! "flag provided but not defined: -" ++ n)

/-! ### The address -/

/-- What comes before and after the last `:`. -/
def lastColon : Str → Option (Str × Str)
  | [] => none
  | c :: s => match lastColon s with
    | some (a, b) => some (c :: a, b)
    | none => if c = ':' then some ([], s) else none

/-- What comes before and after the first `x`. -/
def firstChar (x : Char) : Str → Option (Str × Str)
  | [] => none
  | c :: s => if c = x then some ([], s) else match firstChar x s with
    | some (a, b) => some (c :: a, b)
    | none => none

/-- net.SplitHostPort: what is wrong, or host and port. -/
def splitHostPort (s : Str) : Str ⊕ (Str × Str) :=
  match lastColon s with
  | none => .inl (c! "missing port in address")
  | some (before, port) =>
    match s with
    | '[' :: r =>
      match firstChar ']' ('[' :: r) with
      | none => .inl (c! "missing ']' in address")
      | some (pre, post) =>
        if post = [] then .inl (c! "missing port in address")
        else if pre.length + 1 = before.length then
          if '[' ∈ r then .inl (c! "unexpected '[' in address")
          else if ']' ∈ post then .inl (c! "unexpected ']' in address")
          else .inr (pre.drop 1, port)
        else if post.head? = some ':' then .inl (c! "too many colons in address")
        else .inl (c! "missing port in address")
    | _ =>
      if ':' ∈ before then .inl (c! "too many colons in address")
      else if '[' ∈ s then .inl (c! "unexpected '[' in address")
      else if ']' ∈ s then .inl (c! "unexpected ']' in address")
      else .inr (before, port)

/-- The loop of net: parsePort, in 32 bits. -/
def portDigits : Nat → Str → Option Nat
  | n, [] => some n
  | n, c :: s =>
    if !isDig c then none
    else if 2 ^ 30 ≤ n then some (2 ^ 32 - 1)
    else if 2 ^ 32 - 1 < 10 * n + digVal c then some (2 ^ 32 - 1)
    else portDigits (10 * n + digVal c) s

/-- net: parsePort; nothing for the name of a service. -/
def parsePort (s : Str) : Option Int :=
  let go (neg : Bool) (t : Str) : Option Int :=
    (portDigits 0 t).map fun (n : Nat) =>
      let p : Int := if !neg && 2 ^ 30 ≤ n then 2 ^ 30 - 1 else if neg && 2 ^ 30 < n then 2 ^ 30 else (n : Int)
      if neg then -p else p
  match s with
  | [] => some 0
  | '+' :: t => go false t
  | '-' :: t => go true t
  | t => go false t

/-- How the program goes on: it ends, or it asks the system to listen at an address.  Left out:
the date and the time that package log writes before a line. -/
inductive ServerRun where
  | exit (status : Nat) (stderr : Str)
  | listens (host port : Str) (stderr : Str)
  deriving DecidableEq, Repr

/-- The beginning of http.ListenAndServe (net.Listen for "tcp"): an address that is wrong by its
text gives an error, any other is left to the system. -/
def listen (addr : Str) : Str ⊕ (Str × Str) :=
  let fails (a m : Str) : Str ⊕ (Str × Str) := .inl (c! "listen tcp: address " ++ a ++ c! ": " ++ m)
  match splitHostPort addr with
  | .inl m => fails addr m
  | .inr (host, port) =>
    match parsePort port with
    | none => .inr (host, port)
    | some p => if p < 0 ∨ 65535 < p then fails port (c! "invalid port") else .inr (host, port)

/-- cmd/server-wasm/main.go:13-42 -/
def cmdServer (name : Str) (as : List Str) : ServerRun :=
  match serverFlags (serverUsage name) as serverDefaults with
  | .inr (status, m) => .exit status m
  | .inl o =>
    let addr := o.host ++ c! ":" ++ itoa o.port
    let line := logLine (c! "Listening for requests on " ++ addr)
    match listen addr with
    | .inl m => .exit 1 (line ++ logLine (c! "Failed to start server, " ++ m))
    | .inr (host, port) => .listens host port line

end EDTF
