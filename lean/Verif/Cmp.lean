/- cmp/*.go and unix/range.go -/
import Verif.Parser
namespace EDTF

/-- `fmt.Errorf("… %v", err)`: only the text of the error is kept. -/
def formatErr {α : Type} : Res α → Res α
  | .err _ => .err .plain
  | r => r

/-- cmp/after.go:9-24.  Parse errors are formatted with %v into a plain error. -/
def isAfter (this_d that_d : Str) : Res Bool := do
  let a ← formatErr (parseString this_d)
  let b ← formatErr (parseString that_d)
  a.after b

/-- cmp/before.go:9-24 -/
def isBefore (this_d that_d : Str) : Res Bool := do
  let a ← formatErr (parseString this_d)
  let b ← formatErr (parseString that_d)
  a.before b

/-- cmp/between.go:10-36 -/
def isBetween (d inception cessation : Str) : Res Bool := do
  let before ← wrapErr (isBefore d inception)
  if before then .ok false
  else if cessation ≠ OPEN then do
    let after ← wrapErr (isAfter d cessation)
    if after then .ok false else .ok true
  else .ok true

namespace Unix

/-- unix/range.go:11-16 -/
structure Span where
  start : Int
  stop : Int
  deriving DecidableEq, Repr

/-- unix/range.go:19-24 -/
structure Range where
  outer : Span
  inner : Span
  deriving DecidableEq, Repr

/-- unix/range.go:112-127 -/
def isValid (s : Str) : Bool :=
  if isOpenStr s then false
  else if isUnknownStr s then false
  else if isUnspecifiedStr s then false
  else true

/-- unix/range.go:29-110.  `(true, r, nil)` is `ok (some r)`, `(false, nil,
nil)` is `ok none`. -/
def deriveRanges (s : Str) : Res (Option Range) :=
  if !isValid s then .ok none
  else do
    let d ← wrapErr (parseString s)
    let st ← Res.deref d.start
    let en ← Res.deref d.stop
    match st.lower, st.upper, en.lower, en.upper with
    | some sl, some su, some el, some eu =>
      match sl.timestamp, su.timestamp, el.timestamp, eu.timestamp with
      | some a, some b, some c, some d => .ok (some ⟨⟨a, d⟩, ⟨b, c⟩⟩)
      | _, _, _, _ => .ok none
    | _, _, _, _ => .ok none

end Unix
end EDTF
