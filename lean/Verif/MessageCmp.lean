/-
The comparisons, the Unix ranges and the replacement of deprecated strings with the texts
of their errors.  As in `Message`, a function `f` has a twin `fM`, and `PropsMessageCmp`
proves that each twin without its texts is the function it repeats.
-/
import Verif.Cmp
import Verif.Message
namespace EDTF

namespace Told

/-- `fmt.Errorf(before + "%v", err)`: a new error, of which only the text is left. -/
def format {α : Type} (before : Str) : Told α → Told α
  | fault f => says (before ++ f.text)
  | r => r

/-- `fmt.Errorf(before + "%w", err)`: the error is kept inside the new one. -/
def wrap {α : Type} (before : Str) : Told α → Told α
  | fault f => fault ⟨.wrapped f.err, before ++ f.text⟩
  | r => r

end Told

/-- edtf.go:101-124 -/
def EDTFDate.afterM (d u : EDTFDate) : Told Bool :=
  if isOpenStr d.edtf then .ok false
  else do
    let ut ← (Told.lift u.upper).wrap (c! "Failed to derive upper time for inception date (" ++ u.edtf ++ c! "), ")
    let t ← (Told.lift d.lower).wrap (c! "Failed to derive lower time for cessation date (" ++ d.edtf ++ c! "), ")
    if goSeconds ut > goSeconds t then .ok false else .ok true

/-- edtf.go:127-150 -/
def EDTFDate.beforeM (d u : EDTFDate) : Told Bool :=
  if isOpenStr d.edtf then .ok false
  else do
    let ut ← (Told.lift u.lower).wrap (c! "Failed to derive lower time for inception date (" ++ u.edtf ++ c! "), ")
    let t ← (Told.lift d.upper).wrap (c! "Failed to derive upper time for cessation date (" ++ d.edtf ++ c! "), ")
    if goSeconds ut < goSeconds t then .ok false else .ok true

/-- cmp/after.go:9-24 -/
def isAfterM (this_d that_d : Str) : Told Bool := do
  let a ← (parseStringM this_d).format (c! "Failed to parse '" ++ this_d ++ c! "', ")
  let b ← (parseStringM that_d).format (c! "Failed to parse '" ++ that_d ++ c! "', ")
  a.afterM b

/-- cmp/before.go:9-24 -/
def isBeforeM (this_d that_d : Str) : Told Bool := do
  let a ← (parseStringM this_d).format (c! "Failed to parse '" ++ this_d ++ c! "', ")
  let b ← (parseStringM that_d).format (c! "Failed to parse '" ++ that_d ++ c! "', ")
  a.beforeM b

/-- cmp/between.go:10-36 -/
def isBetweenM (d inception cessation : Str) : Told Bool := do
  let before ← (isBeforeM d inception).wrap (c! "Failed to determine if date is before inception date, ")
  if before then .ok false
  else if cessation ≠ OPEN then do
    let after ← (isAfterM d cessation).wrap (c! "Failed to determine if date is after cessation date, ")
    if after then .ok false else .ok true
  else .ok true

/-- unix/range.go:29-110 -/
def Unix.deriveRangesM (s : Str) : Told (Option Unix.Range) :=
  if !Unix.isValid s then .ok none
  else do
    let d ← (parseStringM s).wrap (c! "Failed to parse '" ++ s ++ c! "', ")
    let st ← Told.lift (Res.deref d.start)
    let en ← Told.lift (Res.deref d.stop)
    match st.lower, st.upper, en.lower, en.upper with
    | some sl, some su, some el, some eu =>
      match sl.timestamp, su.timestamp, el.timestamp, eu.timestamp with
      | some a, some b, some c, some d => .ok (some ⟨⟨a, d⟩, ⟨b, c⟩⟩)
      | _, _, _, _ => .ok none
    | _, _, _, _ => .ok none

/-- `%v` of a `map[string]string`: package fmt writes the entries in the order of the keys,
which is the order of `deprecatedTable`. -/
def mapText (m : List (Str × Str)) : Str :=
  c! "map[" ++ (c! " ").intercalate (m.map (fun p => p.1 ++ c! ":" ++ p.2)) ++ c! "]"

/-- deprecated.go:32-42 -/
def replaceDeprecatedM (old : Str) : Told Str :=
  match deprecatedTable.lookup old with
  | some new => .ok new
  | none => .says (c! "Unknown or unsupported EDTF string '" ++ old ++ c! "' : " ++ mapText deprecatedTable)

end EDTF
