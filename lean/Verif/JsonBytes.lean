/-
json.Unmarshal on bytes.  encoding/json first scans the bytes one by one, and then turns what
stands between quotes into a string, where a byte that begins no character becomes U+FFFD.
-/
import Verif.Json
import Verif.FloatText
namespace EDTF

/-- encoding/json, `unquoteBytes` of what was scanned between quotes, each byte as a character. -/
def unquoteBytes (raw : Str) : Str := unquote none (runes (raw.map fun c => .ofNat c.toNat))

mutual
/-- The strings of a document, read from their bytes. -/
def JV.unquoted : JV → JV
  | .null => .null
  | .bool b => .bool b
  | .num l => .num l
  | .str raw _ => .str raw (unquoteBytes raw)
  | .arr vs => .arr (JV.unquotedElems vs)
  | .obj ms => .obj (JV.unquotedMembers ms)
def JV.unquotedElems : List JV → List JV
  | [] => []
  | v :: vs => v.unquoted :: JV.unquotedElems vs
def JV.unquotedMembers : List ((Str × Str) × JV) → List ((Str × Str) × JV)
  | [] => []
  | ((k, _), v) :: ms => ((k, unquoteBytes k), v.unquoted) :: JV.unquotedMembers ms
end

/-- json.Unmarshal of bytes into a fresh `EDTFDate` (edtf.go:58-64).  An error is `none`. -/
def EDTFDate.unmarshalBytes (b : Bytes) : Option EDTFDate := do
  let v ← readJson (b.map byteChar)
  EDTFDate.ofJson ⟨none, none, [], 0, []⟩ v.unquoted

end EDTF
