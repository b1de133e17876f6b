/-
The specification of cmd/server-wasm: numbers as package flag reads them, the flags, and the
address.
-/
import Verif.SpecStderr
import Verif.Server
import Verif.SpecMessageYmd
namespace EDTF.Spec

/-! ### Numbers -/

/-- A digit of a base; letters may be small or capital. -/
inductive BaseDigit (b : Nat) : Char → Nat → Prop
  | dig (d : Nat) (h : d < 10) (hb : d < b) : BaseDigit b (dig d) d
  | small (d : Nat) (h : 10 ≤ d) (hb : d < b) : BaseDigit b (Char.ofNat (87 + d)) d
  | capital (d : Nat) (h : 10 ≤ d) (hb : d < b) : BaseDigit b (Char.ofNat (55 + d)) d

/-- The number of a row of digits. -/
def valueIn (b : Nat) (ds : List Nat) : Nat := ds.foldl (fun acc d => b * acc + d) 0

/-- At least one digit; between two there may be an underscore. -/
inductive Grouped (b : Nat) : List Nat → Str → Prop
  | one (c : Char) (d : Nat) (h : BaseDigit b c d) : Grouped b [d] [c]
  | next (c : Char) (d : Nat) (h : BaseDigit b c d) (ds : List Nat) (t : Str) (k : Grouped b ds t) : Grouped b (d :: ds) (c :: t)
  | under (c : Char) (d : Nat) (h : BaseDigit b c d) (ds : List Nat) (t : Str) (k : Grouped b ds t) : Grouped b (d :: ds) (c :: '_' :: t)

/-- What comes before the digits of a base. -/
inductive BasePrefix : Str → Nat → Prop
  | b : BasePrefix (c! "0b") 2
  | B : BasePrefix (c! "0B") 2
  | o : BasePrefix (c! "0o") 8
  | O : BasePrefix (c! "0O") 8
  | x : BasePrefix (c! "0x") 16
  | X : BasePrefix (c! "0X") 16

/-- A number without a sign, written as in a Go program. -/
inductive GoNat : Str → Nat → Prop
  | zero : GoNat (c! "0") 0
  | decimal (ds : List Nat) (t : Str) (h : Grouped 10 ds t) (h0 : t.head? ≠ some '0') : GoNat t (valueIn 10 ds)
  | octal (ds : List Nat) (u t : Str) (hu : u = [] ∨ u = c! "_") (h : Grouped 8 ds t) : GoNat ('0' :: (u ++ t)) (valueIn 8 ds)
  | based (p : Str) (b : Nat) (hp : BasePrefix p b) (ds : List Nat) (u t : Str) (hu : u = [] ∨ u = c! "_") (h : Grouped b ds t) :
      GoNat (p ++ (u ++ t)) (valueIn b ds)

/-- The same with a sign. -/
inductive GoInt : Str → Int → Prop
  | plain (t : Str) (n : Nat) (h : GoNat t n) : GoInt t n
  | plus (t : Str) (n : Nat) (h : GoNat t n) : GoInt ('+' :: t) n
  | minus (t : Str) (n : Nat) (h : GoNat t n) : GoInt ('-' :: t) (-(n : Int))

/-- Digits and underscores in any order. -/
inductive Scattered (b : Nat) : List Nat → Str → Prop
  | nil : Scattered b [] []
  | digit (c : Char) (d : Nat) (h : BaseDigit b c d) (ds : List Nat) (t : Str) (k : Scattered b ds t) : Scattered b (d :: ds) (c :: t)
  | under (ds : List Nat) (t : Str) (k : Scattered b ds t) : Scattered b ds ('_' :: t)

/-- A text without a sign that begins with a number of more than 64 bits. -/
inductive Oversize : Str → Prop
  | decimal (ds : List Nat) (t rest : Str) (h : Scattered 10 ds t) (h0 : t.head? ≠ some '0') (hv : 2 ^ 64 ≤ valueIn 10 ds) : Oversize (t ++ rest)
  | octal (ds : List Nat) (t rest : Str) (h : Scattered 8 ds t) (hv : 2 ^ 64 ≤ valueIn 8 ds) : Oversize ('0' :: (t ++ rest))
  | based (p : Str) (b : Nat) (hp : BasePrefix p b) (ds : List Nat) (t rest : Str) (h : Scattered b ds t) (hv : 2 ^ 64 ≤ valueIn b ds) :
      Oversize (p ++ (t ++ rest))

/-- A text that is a port for package flag: any integer of 64 bits. -/
def PortText (s : Str) (v : Int) : Prop := GoInt s v ∧ -2 ^ 63 ≤ v ∧ v < 2 ^ 63

/-- A text that begins, after a sign, with a number of more than 64 bits. -/
def OversizeInt (s : Str) : Prop := Oversize s ∨ ∃ t, (s = '+' :: t ∨ s = '-' :: t) ∧ Oversize t

/-- Why a text is none. -/
inductive NoPort (s : Str) : Str → Prop
  | long (h : OversizeInt s) : NoPort s (c! "value out of range")
  | range (v : Int) (h : GoInt s v) (hv : v < -2 ^ 63 ∨ 2 ^ 63 ≤ v) : NoPort s (c! "value out of range")
  | other (h1 : ∀ v, ¬ GoInt s v) (h2 : ¬ OversizeInt s) : NoPort s (c! "parse error")

/-! ### Flags -/

/-- One or two hyphens. -/
def Hyphens (hy : Str) : Prop := hy = c! "-" ∨ hy = c! "--"

/-- An argument for one of the two flags. -/
def Ours (a : Str) : Prop := ∃ hy n v, Hyphens hy ∧ (n = c! "host" ∨ n = c! "port") ∧ (v = [] ∨ ∃ w, v = '=' :: w) ∧ a = hy ++ (n ++ v)

/-- What the arguments make of a host and a port: others, or the end with a status and a text. -/
inductive ServerArgs (usage : Str) : List Str → Str → Int → (Str × Int) ⊕ (Nat × Str) → Prop
  | plain (as : List Str) (h : Str) (p : Int) (k : NoFlag as) : ServerArgs usage as h p (.inl (h, p))
  | dashes (as : List Str) (h : Str) (p : Int) : ServerArgs usage (c! "--" :: as) h p (.inl (h, p))
  | host (hy v : Str) (hh : Hyphens hy) (as : List Str) (h : Str) (p : Int) (r : (Str × Int) ⊕ (Nat × Str)) (k : ServerArgs usage as v p r) :
      ServerArgs usage ((hy ++ (c! "host" ++ '=' :: v)) :: as) h p r
  | hostNext (hy v : Str) (hh : Hyphens hy) (as : List Str) (h : Str) (p : Int) (r : (Str × Int) ⊕ (Nat × Str)) (k : ServerArgs usage as v p r) :
      ServerArgs usage ((hy ++ c! "host") :: v :: as) h p r
  | port (hy v : Str) (hh : Hyphens hy) (n : Int) (hn : PortText v n) (as : List Str) (h : Str) (p : Int) (r : (Str × Int) ⊕ (Nat × Str))
      (k : ServerArgs usage as h n r) : ServerArgs usage ((hy ++ (c! "port" ++ '=' :: v)) :: as) h p r
  | portNext (hy v : Str) (hh : Hyphens hy) (n : Int) (hn : PortText v n) (as : List Str) (h : Str) (p : Int) (r : (Str × Int) ⊕ (Nat × Str))
      (k : ServerArgs usage as h n r) : ServerArgs usage ((hy ++ c! "port") :: v :: as) h p r
  | badPort (hy v q why : Str) (hh : Hyphens hy) (hq : EscapedAll v q) (hw : NoPort v why) (as : List Str) (h : Str) (p : Int) :
      ServerArgs usage ((hy ++ (c! "port" ++ '=' :: v)) :: as) h p
        (.inr (2, c! "invalid value \"" ++ q ++ c! "\" for flag -port: " ++ why ++ c! "\n" ++ usage))
  | badPortNext (hy v q why : Str) (hh : Hyphens hy) (hq : EscapedAll v q) (hw : NoPort v why) (as : List Str) (h : Str) (p : Int) :
      ServerArgs usage ((hy ++ c! "port") :: v :: as) h p
        (.inr (2, c! "invalid value \"" ++ q ++ c! "\" for flag -port: " ++ why ++ c! "\n" ++ usage))
  | missing (hy n : Str) (hh : Hyphens hy) (hn : n = c! "host" ∨ n = c! "port") (h : Str) (p : Int) :
      ServerArgs usage [hy ++ n] h p (.inr (2, c! "flag needs an argument: -" ++ n ++ c! "\n" ++ usage))
  | help (a : Str) (ha : AsksHelp a) (as : List Str) (h : Str) (p : Int) : ServerArgs usage (a :: as) h p (.inr (0, usage))
  | unknown (a t : Str) (ha : ¬ AsksHelp a) (ho : ¬ Ours a) (ht : FlagText a t) (as : List Str) (h : Str) (p : Int) :
      ServerArgs usage (a :: as) h p (.inr (2, t ++ usage))

/-! ### Addresses -/

/-- A host and the name in it: as it is, or in brackets, where it may have colons. -/
inductive HostName : Str → Str → Prop
  | bare (h : Str) (h1 : ':' ∉ h) (h2 : '[' ∉ h) (h3 : ']' ∉ h) : HostName h h
  | brackets (n : Str) (h2 : '[' ∉ n) (h3 : ']' ∉ n) : HostName ('[' :: (n ++ c! "]")) n

/-- Why a host has no name. -/
inductive HostFault : Str → Str → Prop
  /-- colons without brackets -/
  | colons (h : Str) (h0 : h.head? ≠ some '[') (h1 : ':' ∈ h) : HostFault h (c! "too many colons in address")
  | left (h : Str) (h0 : h.head? ≠ some '[') (h1 : ':' ∉ h) (h2 : '[' ∈ h) : HostFault h (c! "unexpected '[' in address")
  | right (h : Str) (h1 : ':' ∉ h) (h2 : '[' ∉ h) (h3 : ']' ∈ h) : HostFault h (c! "unexpected ']' in address")
  | opened (n : Str) (h3 : ']' ∉ n) : HostFault ('[' :: n) (c! "missing ']' in address")
  | twice (n : Str) (h2 : '[' ∈ n) (h3 : ']' ∉ n) : HostFault ('[' :: (n ++ c! "]")) (c! "unexpected '[' in address")
  | again (n t : Str) (h3 : ']' ∉ n) : HostFault ('[' :: (n ++ c! "]:" ++ t)) (c! "too many colons in address")
  | after (n t : Str) (c : Char) (hc : c ≠ ':') (h3 : ']' ∉ n) : HostFault ('[' :: (n ++ c! "]" ++ c :: t)) (c! "missing port in address")

/-- A number in decimal digits. -/
def intDigits (v : Int) : Str := if v < 0 then '-' :: Nat.toDigits 10 v.natAbs else Nat.toDigits 10 v.natAbs

def usageText (name : Str) : Str :=
  c! "Usage of " ++ name ++ c! ":\n  -host string\n    \tThe host to serve requests from (default \"localhost\")\n  -port int\n    \tThe port to serve requests from (default 8080)\n"

def startLine (h : Str) (p : Int) : Str := c! "Listening for requests on " ++ h ++ c! ":" ++ intDigits p ++ c! "\n"
def failLine (addr why : Str) : Str := c! "Failed to start server, listen tcp: address " ++ addr ++ c! ": " ++ why ++ c! "\n"

/-- How the server starts. -/
inductive Starts (name : Str) (as : List Str) : ServerRun → Prop
  | stopped (n : Nat) (t : Str) (h : ServerArgs (usageText name) as (c! "localhost") 8080 (.inr (n, t))) : Starts name as (.exit n t)
  | listens (h n : Str) (p : Int) (ha : ServerArgs (usageText name) as (c! "localhost") 8080 (.inl (h, p))) (hn : HostName h n) (h1 : 0 ≤ p) (h2 : p ≤ 65535) :
      Starts name as (.listens n (intDigits p) (startLine h p))
  | badPort (h n : Str) (p : Int) (ha : ServerArgs (usageText name) as (c! "localhost") 8080 (.inl (h, p))) (hn : HostName h n) (hp : p < 0 ∨ 65535 < p) :
      Starts name as (.exit 1 (startLine h p ++ failLine (intDigits p) (c! "invalid port")))
  | badHost (h why : Str) (p : Int) (ha : ServerArgs (usageText name) as (c! "localhost") 8080 (.inl (h, p))) (hw : HostFault h why) :
      Starts name as (.exit 1 (startLine h p ++ failLine (h ++ c! ":" ++ intDigits p) why))

end EDTF.Spec
