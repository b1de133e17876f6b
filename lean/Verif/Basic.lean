/-
Outcomes, errors and string literals used throughout the model.
-/
namespace EDTF

/-- Go strings are modelled as lists of Unicode code points (valid UTF-8 only).
Every string whose length or characters the code inspects by index is ASCII, so
code points and bytes coincide there. -/
abbrev Str := List Char

open Lean in
/-- `c! "abc"` is the list `['a', 'b', 'c']`. -/
macro "c!" s:str : term => do
  let cs : Array (TSyntax `term) := (s.getString.toList.map (fun c => ⟨Syntax.mkCharLit c⟩)).toArray
  `(([$cs,*] : List Char))

/-- The errors the package can return.  `errors.go:7-130` defines five error
types; `NotSetError` exists but is never constructed (errors.go:14-16).
Everything else (`errors.New`, `strconv`, `time`, `math/big` errors and errors
wrapped by `fmt.Errorf`) is a plain error that none of the `IsX` predicates
recognises.  The texts are in `Text` and `Message`. -/
inductive Err where
  | notSet
  | notImplemented (label edtf : Str)
  | invalid (label edtf : Str)
  | unsupported (label edtf : Str)
  | unrecognized (label edtf : Str)
  | plain
  | wrapped (e : Err)
  deriving DecidableEq, Repr

/-- Outcome of a Go call returning `(value, error)`: a value, an error, or a panic. -/
inductive Res (α : Type) where
  | ok (a : α)
  | err (e : Err)
  | panic
  deriving DecidableEq, Repr

namespace Res

/-- Sequencing: the `if err != nil { return nil, err }` idiom; a panic propagates. -/
@[reducible] def bind {α β : Type} (x : Res α) (f : α → Res β) : Res β :=
  match x with
  | ok a => f a
  | err e => err e
  | panic => panic

instance : Monad Res where
  pure := ok
  bind := bind

@[simp] theorem ok_bind {α β : Type} (a : α) (f : α → Res β) : (Res.ok a >>= f) = f a := rfl
@[simp] theorem err_bind {α β : Type} (e : Err) (f : α → Res β) : (Res.err e >>= f) = Res.err e := rfl
@[simp] theorem panic_bind {α β : Type} (f : α → Res β) : (Res.panic >>= f) = Res.panic := rfl
@[simp] theorem pure_eq {α : Type} (a : α) : (pure a : Res α) = Res.ok a := rfl

theorem bind_eq_ok {α β : Type} {x : Res α} {f : α → Res β} {b : β} :
    (x >>= f) = Res.ok b ↔ ∃ a, x = Res.ok a ∧ f a = Res.ok b := by
  cases x <;> simp

theorem bind_eq_panic {α β : Type} {x : Res α} {f : α → Res β} :
    (x >>= f) = Res.panic ↔ x = Res.panic ∨ ∃ a, x = Res.ok a ∧ f a = Res.panic := by
  cases x <;> simp

theorem bind_eq_err {α β : Type} {x : Res α} {f : α → Res β} {e : Err} :
    (x >>= f) = Res.err e ↔ x = Res.err e ∨ ∃ a, x = Res.ok a ∧ f a = Res.err e := by
  cases x <;> simp

/-- Dereferencing a pointer: `nil` panics. -/
def deref {α : Type} : Option α → Res α
  | some a => ok a
  | none => panic

/-- A standard-library call that either gives a value or a plain error. -/
def ofOption {α : Type} : Option α → Res α
  | some a => ok a
  | none => err .plain

@[simp] theorem deref_some {α : Type} (a : α) : deref (some a) = ok a := rfl
@[simp] theorem deref_none {α : Type} : deref (none : Option α) = panic := rfl
@[simp] theorem ofOption_some {α : Type} (a : α) : ofOption (some a) = ok a := rfl
@[simp] theorem ofOption_none {α : Type} : ofOption (none : Option α) = err .plain := rfl

theorem ofOption_eq_ok {α : Type} {o : Option α} {a : α} : ofOption o = ok a ↔ o = some a := by
  cases o <;> simp [ofOption]

theorem ofOption_ne_panic {α : Type} {o : Option α} : ofOption o ≠ panic := by
  cases o <;> simp [ofOption]

end Res

/-- errors.go:14-16 — returns a *not implemented* error. -/
def NotSet : Err := .notImplemented [] []
/-- errors.go:37-42 -/
def NotImplemented (label edtf : Str) : Err := .notImplemented label edtf
/-- errors.go:63-68 -/
def Invalid (label edtf : Str) : Err := .invalid label edtf
/-- errors.go:89-94 -/
def Unsupported (label edtf : Str) : Err := .unsupported label edtf
/-- errors.go:115-120 -/
def Unrecognized (label edtf : Str) : Err := .unrecognized label edtf

/-- errors.go:18-26 -/
def isNotSet : Err → Bool
  | .notSet => true
  | _ => false
/-- errors.go:44-52 -/
def isNotImplemented : Err → Bool
  | .notImplemented _ _ => true
  | _ => false
/-- errors.go:70-78 -/
def isInvalid : Err → Bool
  | .invalid _ _ => true
  | _ => false
/-- errors.go:96-104 -/
def isUnsupported : Err → Bool
  | .unsupported _ _ => true
  | _ => false
/-- errors.go:122-130 -/
def isUnrecognized : Err → Bool
  | .unrecognized _ _ => true
  | _ => false

end EDTF
