/-
The specification of the labels of the ranges.  Each range of a result carries a
text of its own, its label.  A label names its range if the parser takes the
label too and the time so found contains the range; here are the strings for
which a label does not.
-/
import Verif.SpecDenote
namespace EDTF.Spec

/-- The range `r` lies between the boundaries `a` and `b`: in time, or all are
open, or all are unknown. -/
def Between (a b : Date) (r : DateRange) : Prop :=
  ∃ l u : Date, r.lower = some l ∧ r.upper = some u ∧
    ((∃ ta tb tl tu : Int, a.timestamp = some ta ∧ b.timestamp = some tb ∧ l.timestamp = some tl ∧ u.timestamp = some tu ∧ ta ≤ tl ∧ tu ≤ tb) ∨
      (a.isOpen = true ∧ b.isOpen = true ∧ l.isOpen = true ∧ u.isOpen = true) ∨
      (a.unknown = true ∧ b.unknown = true ∧ l.unknown = true ∧ u.unknown = true))

/-- A date that is accepted alone: one of Level 0, or one without a sign that has
unspecified digits or qualifiers but not both. -/
def Endpoint.alone (e : Endpoint) : Prop :=
  e.plain ∨ (e.date.neg = false ∧ ('X' ∈ e.text → e.qy = .none ∧ e.qm = .none ∧ e.qd = .none))

instance (e : Endpoint) : Decidable e.alone := by unfold Endpoint.alone; infer_instance

/-- The strings for which a label does not name its range. -/
inductive Unnamed : Str → Prop
  /-- open: the labels are empty, which reads as unknown -/
  | opened : Unnamed (c! "..")
  /-- a time of day: the labels are empty -/
  | time (neg : Bool) (y m d hh mi ss : Nat) (z : Zone) (hy : y < 10000) (V : Valid y m d) (k1 : hh < 24) (k2 : mi < 60) (k3 : ss < 60)
      (hz : z.ok) : Unnamed (clockText neg y m d hh mi ss z)
  /-- an interval of which an end is not accepted alone -/
  | interval (a b : Endpoint) (ha : a.Readable) (hb : b.Readable) (ra : noRight a.qy a.qm a.qd) (rb : noRight b.qy b.qm b.qd)
      (h : ¬ a.alone ∨ ¬ b.alone) : Unnamed (a.text ++ '/' :: b.text)
  /-- a set of several members with an open side: the label of that side is empty -/
  | set (o c : Char) (hb : Brackets o c) (cs : List Chunk) (hc : ChunksOk cs) (hm : MembersOk (cs.flatMap Chunk.members))
      (h2 : 2 ≤ (cs.flatMap Chunk.members).length) (h : cs.any Chunk.opensStart = true ∨ cs.any Chunk.opensEnd = true) :
      Unnamed (o :: (commaJoin (cs.map Chunk.text) ++ [c]))

end EDTF.Spec
