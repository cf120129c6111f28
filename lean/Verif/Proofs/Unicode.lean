import Verif.Model.Unicode
import Verif.Proofs.Basic

/-! Helper lemmas: UTF-8 and UTF-16. -/

namespace Verif.Proofs
open Verif.Model Verif.Model.Unicode

theorem isScalar_iff (r : Rune) : isScalar r = true ↔ r < 0xD800 ∨ (0xE000 ≤ r ∧ r ≤ 0x10FFFF) := by
  simp [isScalar]

theorem contIn_iff (lo hi : Nat) (b : UInt8) : contIn lo hi b = true ↔ lo ≤ b.toNat ∧ b.toNat ≤ hi := by
  simp [contIn]

theorem ofNat_toNat_lt (n : Nat) (h : n < 256) : (UInt8.ofNat n).toNat = n := by
  simp only [UInt8.toNat_ofNat']; omega

theorem decodeRune_encodeRune (r : Rune) (h : isScalar r = true) :
    ∃ b0 t, encodeRune r = b0 :: t ∧ ∀ rest, decodeRune b0 (t ++ rest) = (r, t.length + 1) := by
  have hs := (isScalar_iff r).mp h
  unfold encodeRune
  simp only [h, if_true]
  split
  · refine ⟨_, _, rfl, fun rest => ?_⟩
    simp only [decodeRune, ofNat_toNat_lt r (by omega)]
    rw [if_pos (by omega)]; rfl
  split
  · refine ⟨_, _, rfl, fun rest => ?_⟩
    simp only [decodeRune, List.cons_append, List.nil_append, ofNat_toNat_lt (0xC0 + r / 64) (by omega),
      ofNat_toNat_lt (0x80 + r % 64) (by omega)]
    rw [if_neg (by omega), if_neg (by omega), if_pos (by omega), if_pos]
    · congr 1; omega
    · unfold secondOk
      rw [if_neg (by omega), if_neg (by omega), if_neg (by omega), if_neg (by omega), contIn_iff,
        ofNat_toNat_lt (0x80 + r % 64) (by omega)]
      omega
  split
  · refine ⟨_, _, rfl, fun rest => ?_⟩
    simp only [decodeRune, List.cons_append, List.nil_append, ofNat_toNat_lt (0xE0 + r / 4096) (by omega),
      ofNat_toNat_lt (0x80 + r % 64) (by omega), ofNat_toNat_lt (0x80 + r / 64 % 64) (by omega)]
    rw [if_neg (by omega), if_neg (by omega), if_neg (by omega), if_pos (by omega), if_pos]
    · congr 1; omega
    · rw [Bool.and_eq_true, contIn_iff, ofNat_toNat_lt (0x80 + r % 64) (by omega)]
      refine ⟨?_, by omega⟩
      unfold secondOk
      split
      · rw [contIn_iff, ofNat_toNat_lt (0x80 + r / 64 % 64) (by omega)]; omega
      split
      · rw [contIn_iff, ofNat_toNat_lt (0x80 + r / 64 % 64) (by omega)]; omega
      rw [if_neg (by omega), if_neg (by omega), contIn_iff, ofNat_toNat_lt (0x80 + r / 64 % 64) (by omega)]; omega
  · refine ⟨_, _, rfl, fun rest => ?_⟩
    simp only [decodeRune, List.cons_append, List.nil_append, ofNat_toNat_lt (0xF0 + r / 262144) (by omega),
      ofNat_toNat_lt (0x80 + r % 64) (by omega), ofNat_toNat_lt (0x80 + r / 64 % 64) (by omega),
      ofNat_toNat_lt (0x80 + r / 4096 % 64) (by omega)]
    rw [if_neg (by omega), if_neg (by omega), if_neg (by omega), if_neg (by omega), if_pos (by omega), if_pos]
    · congr 1; omega
    · rw [Bool.and_eq_true, Bool.and_eq_true, contIn_iff, contIn_iff, ofNat_toNat_lt (0x80 + r % 64) (by omega),
        ofNat_toNat_lt (0x80 + r / 64 % 64) (by omega)]
      refine ⟨⟨?_, by omega⟩, by omega⟩
      unfold secondOk
      rw [if_neg (by omega), if_neg (by omega)]
      split
      · rw [contIn_iff, ofNat_toNat_lt (0x80 + r / 4096 % 64) (by omega)]; omega
      split
      · rw [contIn_iff, ofNat_toNat_lt (0x80 + r / 4096 % 64) (by omega)]; omega
      rw [contIn_iff, ofNat_toNat_lt (0x80 + r / 4096 % 64) (by omega)]; omega

theorem decodeRune_scalar (b0 : UInt8) (t : Bytes) : isScalar (decodeRune b0 t).1 = true := by
  have hrep : isScalar replacement = true := by decide
  have hb := b0.toNat_lt
  unfold decodeRune
  simp only
  split
  · rw [isScalar_iff]; left; omega
  split
  · exact hrep
  split
  · split
    · split
      · rw [isScalar_iff]; left; simp only; omega
      · exact hrep
    · exact hrep
  split
  · split
    · rename_i b1 b2 _
      have h1 := b1.toNat_lt
      have h2 := b2.toNat_lt
      split
      · rename_i h
        rw [Bool.and_eq_true, contIn_iff] at h
        rw [isScalar_iff]; simp only
        have hs := h.1
        unfold secondOk at hs
        split at hs <;> (try split at hs) <;> (try split at hs) <;> (try split at hs) <;>
          rw [contIn_iff] at hs <;> omega
      · exact hrep
    · exact hrep
  split
  · split
    · rename_i b1 b2 b3 _
      have h1 := b1.toNat_lt
      have h2 := b2.toNat_lt
      have h3 := b3.toNat_lt
      split
      · rename_i h
        rw [Bool.and_eq_true, Bool.and_eq_true, contIn_iff, contIn_iff] at h
        rw [isScalar_iff]; simp only
        have hs := h.1.1
        unfold secondOk at hs
        split at hs <;> (try split at hs) <;> (try split at hs) <;> (try split at hs) <;>
          rw [contIn_iff] at hs <;> omega
      · exact hrep
    · exact hrep
  · exact hrep

theorem decodeRunesAux_scalar (n : Nat) : ∀ p : Bytes, ∀ r ∈ decodeRunesAux n p, isScalar r = true := by
  induction n with
  | zero => intro p r h; simp [decodeRunesAux] at h
  | succ n ih =>
    intro p r h
    cases p with
    | nil => simp [decodeRunesAux] at h
    | cons b t =>
      simp only [decodeRunesAux, List.mem_cons] at h
      rcases h with rfl | h
      · exact decodeRune_scalar b t
      · exact ih _ r h

theorem decodeRunes_scalar (p : Bytes) : ∀ r ∈ decodeRunes p, isScalar r = true := decodeRunesAux_scalar _ p

theorem decodeRunesAux_encodeRunes (rs : List Rune) : (∀ r ∈ rs, isScalar r = true) → ∀ fuel,
    (encodeRunes rs).length ≤ fuel → decodeRunesAux fuel (encodeRunes rs) = rs := by
  induction rs with
  | nil => intro _ fuel _; cases fuel <;> rfl
  | cons r rs ih =>
    intro h fuel hf
    obtain ⟨b0, t, e, hd⟩ := decodeRune_encodeRune r (h r (by simp))
    have e' : encodeRunes (r :: rs) = b0 :: (t ++ encodeRunes rs) := by
      simp [encodeRunes, e]
    rw [e'] at hf ⊢
    cases fuel with
    | zero => simp at hf
    | succ fuel =>
      simp only [decodeRunesAux, hd]
      congr 1
      rw [Nat.add_sub_cancel, List.drop_left]
      apply ih (fun x hx => h x (by simp [hx]))
      simp at hf; omega

theorem decodeRunes_encodeRunes (rs : List Rune) (h : ∀ r ∈ rs, isScalar r = true) :
    decodeRunes (encodeRunes rs) = rs :=
  decodeRunesAux_encodeRunes rs h _ (Nat.le_refl _)

/-- Runes that are not scalar values are replaced when a rune slice is converted to a string. -/
def sanitize (r : Rune) : Rune := if isScalar r then r else replacement

theorem sanitize_scalar (r : Rune) : isScalar (sanitize r) = true := by
  unfold sanitize; split
  · assumption
  · decide

theorem sanitize_eq (r : Rune) (h : isScalar r = true) : sanitize r = r := if_pos h

theorem encodeRune_sanitize (r : Rune) : encodeRune r = encodeRune (sanitize r) := by
  unfold encodeRune
  rw [sanitize_scalar]
  simp [sanitize]

theorem encodeRunes_append (a b : List Rune) : encodeRunes (a ++ b) = encodeRunes a ++ encodeRunes b := by
  simp [encodeRunes]

theorem encodeRunes_inj (a b : List Rune) (ha : ∀ r ∈ a, isScalar r = true) (hb : ∀ r ∈ b, isScalar r = true)
    (h : encodeRunes a = encodeRunes b) : a = b := by
  rw [← decodeRunes_encodeRunes a ha, ← decodeRunes_encodeRunes b hb, h]

end Verif.Proofs
