/-
The specification of the times that texts can stand for.
-/
import Verif.SpecNear
namespace EDTF.Spec

/-- The first second of a day of the years -9999 to 9999. -/
def Dawn (f : Int → Nat → Nat → Int) (i : Int) : Prop :=
  ∃ (y : Int) (m d : Nat), Valid y m d ∧ -9999 ≤ y ∧ y ≤ 9999 ∧ i = 86400 * f y m d

/-- The last second of a day of the years -9999 to 9999. -/
def Dusk (f : Int → Nat → Nat → Int) (i : Int) : Prop :=
  ∃ (y : Int) (m d : Nat), Valid y m d ∧ -9999 ≤ y ∧ y ≤ 9999 ∧ i = 86400 * f y m d + 86399

/-- The seconds from the year -9999 until an hour of the second day of the year 10000, and the
first 25 hours of the year -10000. -/
def Reachable (f : Int → Nat → Nat → Int) (i : Int) : Prop :=
  (86400 * f (-9999) 1 1 ≤ i ∧ i < 86400 * f 10000 1 1 + 90000) ∨
  (86400 * f (-10000) 1 1 ≤ i ∧ i < 86400 * f (-10000) 1 1 + 90000)

end EDTF.Spec
