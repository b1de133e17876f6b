/- parser/parser.go -/
import Verif.Level0
import Verif.Level1
import Verif.Level2
namespace EDTF

/-- parser/parser.go:14-34 -/
def isValid (s : Str) : Bool :=
  if L0.isLevel0 s then true
  else if L1.isLevel1 s then true
  else if L2.isLevel2 s then true
  else s == OPEN || s == UNKNOWN

/-- parser/parser.go:37-81 -/
def parseString (s : Str) : Res EDTFDate :=
  if L0.isLevel0 s then L0.parseString s
  else if L1.isLevel1 s then L1.parseString s
  else if L2.isLevel2 s then L2.parseString s
  else if s = OPEN then .ok (mkEDTF openDateSpan s (-1) (c! "Open"))
  else if s = UNKNOWN then .ok (mkEDTF unknownDateSpan s (-1) (c! "Unknown"))
  else .err (Unrecognized (c! "Invalid or unsupported EDTF string") s)

/-- parser/parser.go:84-120 -/
def matchesStr (s : Str) : Res (Int × Str) :=
  if L0.isLevel0 s then do
    let f ← L0.matchesStr s
    .ok (0, f)
  else if L1.isLevel1 s then do
    let f ← L1.matchesStr s
    .ok (1, f)
  else if L2.isLevel2 s then do
    let f ← L2.matchesStr s
    .ok (2, f)
  else .err (Unrecognized (c! "Invalid or unsupported EDTF string") s)

end EDTF
