/- C108, continued: what the tools print is decoded to the date again. -/
import Verif.PropsJsonBytes
import Verif.PropsBytes
import Verif.PropsMessage
import Verif.PropsJson
import Verif.PropsGeneral
namespace EDTF
open Spec

theorem parsed_bytes {b : Bytes} {d : EDTFDate} (h : parseBytesM b = .ok d) : ∃ s, IsUtf8 b s ∧ parseString s = .ok d := by
  rcases (C102_bytes b).1 with ⟨s, hs⟩ | hu
  · refine ⟨s, hs, ?_⟩
    rw [(C102_parse hs).1] at h
    rw [← C79_forget]
    cases e : parseStringM s with
    | ok x => rw [e] at h; injection h with h; rw [h]; rfl
    | fault f => rw [e] at h; cases h
    | panic => rw [e] at h; cases h
  · obtain ⟨u, hu⟩ := hu
    obtain ⟨-, -, t, ht, -⟩ := C102_broken b [] (not_utf8.2 ⟨u, hu⟩)
    rw [ht] at h
    cases h

/-- **C108**: bytes that parse are the `edtf` of their date, and what the tools print for it is decoded to the date again. -/
theorem C108_roundtrip {b w : Bytes} {d : EDTFDate} (h : parseBytesM b = .ok d) (hw : IsUtf8 w d.marshal) :
    IsUtf8 b d.edtf ∧ EDTFDate.unmarshalBytes w = some d ∧ ∀ e, EDTFDate.unmarshalBytes w = some e → parseBytesM (encode e.edtf) = .ok e := by
  obtain ⟨s, hs, hp⟩ := parsed_bytes h
  have hr : EDTFDate.unmarshalBytes w = some d := by rw [C108_utf8 hw, C42_parsed hp]
  have he : IsUtf8 b d.edtf := by rw [show d.edtf = s from C10_source hp]; exact hs
  refine ⟨he, hr, fun e k => ?_⟩
  rw [hr] at k
  injection k with k
  rw [← k, ← isUtf8_iff.1 he, h]

example : ∃ d, parseBytesM (ascii (c! "1985-04-XX")) = .ok d ∧ EDTFDate.unmarshalBytes (encode d.marshal) = some d := by
  obtain ⟨d, hd⟩ : ∃ d, parseBytesM (ascii (c! "1985-04-XX")) = .ok d := ⟨_, rfl⟩
  exact ⟨d, hd, (C108_roundtrip hd (encode_isUtf8 _)).2.1⟩

end EDTF
