/-
The two tables of characters outside of ASCII, those that are printed and those that are not.
-/
import Verif.Message
import Verif.SpecMessageYmd
namespace EDTF
open Spec

theorem hexByte_eq (n : Nat) (h : n < 256) : hexByte n.toUInt8 = hex2 n := by
  have tbl : ∀ n : Fin 256, hexByte n.val.toUInt8 = hex2 n.val := by decide +kernel
  exact tbl ⟨n, h⟩

/-- Whether two lists of ranges cover everything from `lo` without a gap and without an overlap. -/
def tiled (top : Nat) : Nat → Nat → List (Nat × Nat) → List (Nat × Nat) → Bool
  | 0, _, _, _ => false
  | _ + 1, lo, [], [] => lo == top
  | n + 1, lo, (a, b) :: ps, [] => a == lo && a ≤ b && tiled top n (b + 1) ps []
  | n + 1, lo, [], (a, b) :: gs => a == lo && a ≤ b && tiled top n (b + 1) [] gs
  | n + 1, lo, (a, b) :: ps, (a', b') :: gs =>
    if a == lo then a ≤ b && tiled top n (b + 1) ps ((a', b') :: gs) else a' == lo && a' ≤ b' && tiled top n (b' + 1) ((a, b) :: ps) gs

theorem tiled_sound {top : Nat} : ∀ (n lo : Nat) (ps gs : List (Nat × Nat)), tiled top n lo ps gs = true →
    (∀ r ∈ ps, lo ≤ r.1) ∧ (∀ r ∈ gs, lo ≤ r.1) ∧ ∀ x, lo ≤ x → x < top → ((∃ r ∈ ps, r.1 ≤ x ∧ x ≤ r.2) ↔ ¬ ∃ r ∈ gs, r.1 ≤ x ∧ x ≤ r.2) := by
  have left : ∀ (lo a b : Nat) (ps gs : List (Nat × Nat)), a = lo → a ≤ b →
      ((∀ r ∈ ps, b + 1 ≤ r.1) ∧ (∀ r ∈ gs, b + 1 ≤ r.1) ∧ ∀ x, b + 1 ≤ x → x < top → ((∃ r ∈ ps, r.1 ≤ x ∧ x ≤ r.2) ↔ ¬ ∃ r ∈ gs, r.1 ≤ x ∧ x ≤ r.2)) →
      (∀ r ∈ (a, b) :: ps, lo ≤ r.1) ∧ (∀ r ∈ gs, lo ≤ r.1) ∧
        ∀ x, lo ≤ x → x < top → ((∃ r ∈ (a, b) :: ps, r.1 ≤ x ∧ x ≤ r.2) ↔ ¬ ∃ r ∈ gs, r.1 ≤ x ∧ x ≤ r.2) := by
    rintro lo a b ps gs rfl hab ⟨h1, h2, h3⟩
    refine ⟨?_, fun r hr => by have := h2 r hr; omega, fun x hx ht => ?_⟩
    · intro r hr
      rcases List.mem_cons.1 hr with rfl | hr
      · exact Nat.le_refl _
      · have := h1 r hr; omega
    · by_cases hb : x ≤ b
      · refine ⟨fun _ => ?_, fun _ => ⟨(a, b), by simp, hx, hb⟩⟩
        rintro ⟨r, hr, k, -⟩
        have := h2 r hr
        omega
      · rw [← h3 x (by omega) ht]
        constructor
        · rintro ⟨r, hr, k⟩
          rcases List.mem_cons.1 hr with rfl | hr
          · exact absurd k.2 hb
          · exact ⟨r, hr, k⟩
        · rintro ⟨r, hr, k⟩
          exact ⟨r, by simp [hr], k⟩
  have flip : ∀ {ps gs : List (Nat × Nat)} {lo : Nat},
      ((∀ r ∈ gs, lo ≤ r.1) ∧ (∀ r ∈ ps, lo ≤ r.1) ∧ ∀ x, lo ≤ x → x < top → ((∃ r ∈ gs, r.1 ≤ x ∧ x ≤ r.2) ↔ ¬ ∃ r ∈ ps, r.1 ≤ x ∧ x ≤ r.2)) →
      ((∀ r ∈ ps, lo ≤ r.1) ∧ (∀ r ∈ gs, lo ≤ r.1) ∧ ∀ x, lo ≤ x → x < top → ((∃ r ∈ ps, r.1 ≤ x ∧ x ≤ r.2) ↔ ¬ ∃ r ∈ gs, r.1 ≤ x ∧ x ≤ r.2)) := by
    rintro ps gs lo ⟨h1, h2, h3⟩
    exact ⟨h2, h1, fun x hx ht => by rw [h3 x hx ht, Classical.not_not]⟩
  intro n
  induction n with
  | zero => intro lo ps gs h; cases h
  | succ n ih =>
    intro lo ps gs h
    cases ps with
    | nil =>
      cases gs with
      | nil =>
        unfold tiled at h
        have := eq_of_beq h
        exact ⟨nofun, nofun, fun x h1 h2 => by omega⟩
      | cons g gs =>
        obtain ⟨a, b⟩ := g
        unfold tiled at h
        simp only [Bool.and_eq_true, beq_iff_eq, decide_eq_true_eq] at h
        exact flip (left lo a b gs [] h.1.1 h.1.2 (flip (ih _ _ _ h.2)))
    | cons p ps =>
      obtain ⟨a, b⟩ := p
      cases gs with
      | nil =>
        unfold tiled at h
        simp only [Bool.and_eq_true, beq_iff_eq, decide_eq_true_eq] at h
        exact left lo a b ps [] h.1.1 h.1.2 (ih _ _ _ h.2)
      | cons g gs =>
        obtain ⟨a', b'⟩ := g
        unfold tiled at h
        split at h
        · rename_i e
          simp only [Bool.and_eq_true, decide_eq_true_eq] at h
          exact left lo a b ps _ (eq_of_beq e) h.1 (ih _ _ _ h.2)
        · simp only [Bool.and_eq_true, beq_iff_eq, decide_eq_true_eq] at h
          exact flip (left lo a' b' gs _ h.1.1 h.1.2 (flip (ih _ _ _ h.2)))

theorem tables : tiled 0x110000 1500 128 printRanges unprintable = true := by decide +kernel

theorem char_lt (c : Char) : c.toNat < 0x110000 := by
  have := c.valid
  unfold Char.toNat
  rcases this with h | h <;> omega

theorem isPrint_iff {c : Char} (h : 128 ≤ c.toNat) : isPrint c = true ↔ ¬ Unprintable c := by
  rw [Unprintable, ← (tiled_sound _ _ _ _ tables).2.2 c.toNat h (char_lt c)]
  unfold isPrint
  simp only [List.any_eq_true, Bool.and_eq_true, decide_eq_true_eq]

theorem unprintable_ge {c : Char} (h : Unprintable c) : 128 ≤ c.toNat := by
  obtain ⟨r, hr, k, -⟩ := h
  have := (tiled_sound _ _ _ _ tables).2.1 r hr
  omega

theorem hex_four {n : Nat} (h : n < 0x10000) : hexByte (n / 256).toUInt8 ++ hexByte (n % 256).toUInt8 = hexDigits 4 n := by
  rw [hexByte_eq _ (by omega), hexByte_eq _ (by omega)]
  have e : hexDigits 4 n = [(c! "0123456789abcdef").getD (n / 4096 % 16) '?', (c! "0123456789abcdef").getD (n / 256 % 16) '?',
    (c! "0123456789abcdef").getD (n / 16 % 16) '?', (c! "0123456789abcdef").getD (n / 1 % 16) '?'] := rfl
  have e1 : n / 256 / 16 = n / 4096 % 16 := by omega
  have e2 : n % 256 / 16 = n / 16 % 16 := by omega
  have e3 : n % 256 % 16 = n / 1 % 16 := by omega
  rw [e, hex2, hex2, e1, e2, e3]
  rfl

theorem hex_eight {n : Nat} (h : n < 0x110000) : c! "\\U" ++ hexByte (n / 256 / 256 / 256).toUInt8 ++ hexByte (n / 256 / 256 % 256).toUInt8 ++
    hexByte (n / 256 % 256).toUInt8 ++ hexByte (n % 256).toUInt8 = c! "\\U" ++ hexDigits 8 n := by
  rw [hexByte_eq _ (by omega), hexByte_eq _ (by omega), hexByte_eq _ (by omega), hexByte_eq _ (by omega)]
  have e : hexDigits 8 n = [(c! "0123456789abcdef").getD (n / 268435456 % 16) '?', (c! "0123456789abcdef").getD (n / 16777216 % 16) '?',
    (c! "0123456789abcdef").getD (n / 1048576 % 16) '?', (c! "0123456789abcdef").getD (n / 65536 % 16) '?',
    (c! "0123456789abcdef").getD (n / 4096 % 16) '?', (c! "0123456789abcdef").getD (n / 256 % 16) '?',
    (c! "0123456789abcdef").getD (n / 16 % 16) '?', (c! "0123456789abcdef").getD (n / 1 % 16) '?'] := rfl
  have e1 : n / 256 / 256 / 256 / 16 = n / 268435456 % 16 := by omega
  have e2 : n / 256 / 256 / 256 % 16 = n / 16777216 % 16 := by omega
  have e3 : n / 256 / 256 % 256 / 16 = n / 1048576 % 16 := by omega
  have e4 : n / 256 / 256 % 256 % 16 = n / 65536 % 16 := by omega
  have e5 : n / 256 % 256 / 16 = n / 4096 % 16 := by omega
  have e6 : n / 256 % 256 % 16 = n / 256 % 16 := by omega
  have e7 : n % 256 / 16 = n / 16 % 16 := by omega
  have e8 : n % 256 % 16 = n / 1 % 16 := by omega
  rw [e, hex2, hex2, hex2, hex2, e1, e2, e3, e4, e5, e6, e7, e8]
  rfl

end EDTF
