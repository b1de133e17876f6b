/-
Re-association does not change what an expression matches, so the trees of
`Patterns` behave like the trees that the pattern strings compile to.
-/
import Verif.Patterns
namespace EDTF

theorem run_catR (a b : Re) (st : St) : (a.catR b).run st = (Re.cat a b).run st := by
  induction a generalizing b st with
  | cat x y ihx ihy =>
    show (x.catR (y.catR b)).run st = _
    rw [ihx]
    simp only [Re.run, List.flatMap_assoc]
    congr 1
    funext s
    exact ihy b s
  | _ => rfl

theorem run_altR (a b : Re) (st : St) : (a.altR b).run st = (Re.alt a b).run st := by
  induction a generalizing b st with
  | alt x y ihx ihy =>
    show (x.altR (y.altR b)).run st = _
    rw [ihx]
    simp only [Re.run, List.append_assoc]
    rw [ihy]; rfl
  | _ => rfl

theorem run_flat (r : Re) : r.flat.run = r.run := by
  induction r with
  | cat a b iha ihb =>
    funext st
    show (a.flat.catR b.flat).run st = _
    rw [run_catR]
    simp only [Re.run, iha, ihb]
  | alt a b iha ihb =>
    funext st
    show (a.flat.altR b.flat).run st = _
    rw [run_altR]
    simp only [Re.run, iha, ihb]
  | opt a ih => funext st; simp only [Re.flat, Re.run, ih]
  | star a ih => funext st; simp only [Re.flat, Re.run, ih]
  | plus a ih => funext st; simp only [Re.flat, Re.run, ih]
  | grp i a ih => funext st; simp only [Re.flat, Re.run, ih]
  | _ => rfl

theorem search_congr {a b : Re} (h : a.run = b.run) (beg : Bool) (s : Str) : a.search beg s = b.search beg s := by
  induction s generalizing beg with
  | nil => simp only [Re.search, h]
  | cons c cs ih => simp only [Re.search, h, ih]

/-- The tree that a pattern string compiles to finds the same matches with the
same captures as the tree used in the model. -/
theorem compiles_submatch {p : Str} {r : Re} (h : Rx.Compiles p r) :
    ∃ c, Re.compile p = some c ∧ ∀ s, c.matchString s = r.matchString s ∧ c.submatch s = r.submatch s := by
  unfold Rx.Compiles at h
  cases hc : Re.compile p with
  | none => rw [hc] at h; cases h
  | some c =>
    rw [hc] at h
    injection h with h
    have hr : c.run = r.run := by rw [← run_flat c, ← run_flat r, h]
    exact ⟨c, rfl, fun s => by simp only [Re.matchString, Re.submatch, search_congr hr, and_self]⟩

end EDTF
