/- Spans of intervals from the spans of their sides. -/
import Verif.LemmasDisp
namespace EDTF
open Spec

theorem qOk_none (x : Date0) : Date0.qOk x .none .none .none := by
  refine ⟨rfl, rfl, rfl, ?_⟩
  obtain ⟨neg, n, t⟩ := x
  cases t <;> simp

theorem span_text {x : Date0} (h : x.ok) :
    dateSpanFromYMD x.text = .ok (spanRec x.text x.value x.first.1 x.first.2 x.value x.last.1 x.last.2 (Date0.isDay x) 0 0 Prec.YEAR) :=
  dateSpan_date0 h (qOk_none x)

theorem side_slash (x : Side) : '/' ∉ x.text := by
  cases x with
  | opened => decide
  | unknown => decide
  | date x => exact date0_not_mem x (by decide) (by decide)

theorem halfSpan_side {x : Side} (h : x.ok) : ∃ e e' a b, halfSpan x.text = .ok ⟨some ⟨e, (x.range U).lower, a⟩, some ⟨e', b, (x.range U).upper⟩⟩ ∧
    e = (x.range U).edtf ∧ e' = (x.range U).edtf := by
  cases x with
  | opened => exact ⟨_, _, _, _, rfl, rfl, rfl⟩
  | unknown => exact ⟨_, _, _, _, rfl, rfl, rfl⟩
  | date x =>
    have hs : halfSpan (Side.date x).text = .ok (spanRec x.text x.value x.first.1 x.first.2 x.value x.last.1 x.last.2
        (Date0.isDay x) 0 0 Prec.YEAR) := by
      show halfSpan x.text = _
      rw [halfSpan_date0, span_text h]
    exact ⟨_, _, _, _, hs, rfl, rfl⟩

/-- Each range of an interval comes from its own side. -/
theorem span_sides {l r : Side} (hl : l.ok) (hr : r.ok) :
    dateSpanFromEDTF (l.text ++ '/' :: r.text) = .ok ⟨some (l.range U), some (r.range U)⟩ := by
  obtain ⟨e1, e1', a1, b1, h1, k1, k1'⟩ := halfSpan_side hl
  obtain ⟨e2, e2', a2, b2, h2, k2, k2'⟩ := halfSpan_side hr
  rw [dateSpanFromEDTF_slash (side_slash l) (side_slash r), h1, h2, Res.ok_bind, Res.ok_bind]
  unfold joinHalves
  simp only [Res.deref_some, Res.ok_bind]
  rw [k1, k2']

theorem side_congr {f : Int → Nat → Nat → Int} (hf : DayCount f) {x : Side} (h : x.ok) : x.range U = x.range f := by
  cases x with
  | opened => rfl
  | unknown => rfl
  | date x =>
    show x.range U _ _ _ _ = x.range f _ _ _ _
    unfold Date0.range dayStart dayEnd
    rw [dated_congr hf (Date0.valid_first h), dated_congr hf (Date0.valid_last h)]

end EDTF
