import Verif.Spec.Utf8
import Verif.Spec.Utf16
import Verif.Proofs.Unicode

/-! Helper lemmas: the table of UTF-8 sequences is that of the encodings of the scalar values. -/

namespace Verif.Proofs
open Verif.Model Verif.Model.Unicode Verif.Spec

theorem encodeRune_char (r : Nat) : Utf8Char (encodeRune r) := by
  rw [encodeRune_sanitize]
  have h := sanitize_scalar r
  generalize sanitize r = r at h
  have hs := (isScalar_iff r).mp h
  unfold encodeRune
  simp only [h, if_true]
  split
  · show (UInt8.ofNat r).toNat ≤ 0x7f
    rw [ofNat_toNat_lt r (by omega)]; omega
  split
  · simp only [Utf8Char, Tail, ofNat_toNat_lt (0xC0 + r / 64) (by omega), ofNat_toNat_lt (0x80 + r % 64) (by omega)]
    omega
  split
  · simp only [Utf8Char, Tail, ofNat_toNat_lt (0xE0 + r / 4096) (by omega), ofNat_toNat_lt (0x80 + r % 64) (by omega),
      ofNat_toNat_lt (0x80 + r / 64 % 64) (by omega)]
    omega
  · simp only [Utf8Char, Tail, ofNat_toNat_lt (0xF0 + r / 262144) (by omega), ofNat_toNat_lt (0x80 + r % 64) (by omega),
      ofNat_toNat_lt (0x80 + r / 64 % 64) (by omega), ofNat_toNat_lt (0x80 + r / 4096 % 64) (by omega)]
    omega

theorem char_encodeRune (c : List UInt8) (h : Utf8Char c) : ∃ r, Scalar r ∧ c = encodeRune r := by
  have key : ∀ (a : UInt8) (n : Nat), n = a.toNat → UInt8.ofNat n = a := by
    intro a n e; rw [e]; exact UInt8.ofNat_toNat
  unfold Utf8Char at h
  split at h
  · rename_i a
    have e : isScalar a.toNat = true := (isScalar_iff _).2 (.inl (by omega))
    refine ⟨a.toNat, .inl (by omega), ?_⟩
    unfold encodeRune
    simp only [e, if_true]
    rw [if_pos (by omega), key a _ rfl]
  · rename_i a b
    unfold Tail at h
    have hr : Scalar ((a.toNat - 0xc0) * 64 + (b.toNat - 0x80)) := .inl (by omega)
    refine ⟨_, hr, ?_⟩
    unfold encodeRune
    simp only [(isScalar_iff _).2 hr, if_true]
    rw [if_neg (by omega), if_pos (by omega), key a _ (by omega), key b _ (by omega)]
  · rename_i a b c
    unfold Tail at h
    have hr : Scalar ((a.toNat - 0xe0) * 4096 + (b.toNat - 0x80) * 64 + (c.toNat - 0x80)) := by unfold Scalar; omega
    refine ⟨_, hr, ?_⟩
    unfold encodeRune
    simp only [(isScalar_iff _).2 hr, if_true]
    rw [if_neg (by omega), if_neg (by omega), if_pos (by omega), key a _ (by omega), key b _ (by omega), key c _ (by omega)]
  · rename_i a b c d
    unfold Tail at h
    have hr : Scalar ((a.toNat - 0xf0) * 262144 + (b.toNat - 0x80) * 4096 + (c.toNat - 0x80) * 64 + (d.toNat - 0x80)) := by
      unfold Scalar; omega
    refine ⟨_, hr, ?_⟩
    unfold encodeRune
    simp only [(isScalar_iff _).2 hr, if_true]
    rw [if_neg (by omega), if_neg (by omega), if_neg (by omega), key a _ (by omega), key b _ (by omega), key c _ (by omega),
      key d _ (by omega)]
  · exact h.elim

/-- Runes become UTF-8, whether they are scalar values or not. -/
theorem encodeRunes_utf8 (rs : List Nat) : Utf8 (encodeRunes rs) := by
  refine ⟨rs.map encodeRune, ?_, ?_⟩
  · intro c hc
    obtain ⟨r, _, rfl⟩ := List.mem_map.1 hc
    exact encodeRune_char r
  · unfold encodeRunes
    rw [List.flatMap_def]

theorem utf8_iff (text : List UInt8) : Utf8 text ↔ ∃ rs, (∀ r ∈ rs, Scalar r) ∧ text = encodeRunes rs := by
  constructor
  · rintro ⟨chars, h, rfl⟩
    induction chars with
    | nil => exact ⟨[], by simp, rfl⟩
    | cons c chars ih =>
      obtain ⟨rs, h1, h2⟩ := ih (fun x hx => h x (by simp [hx]))
      obtain ⟨r, hr, rfl⟩ := char_encodeRune c (h c (by simp))
      refine ⟨r :: rs, ?_, ?_⟩
      · intro x hx
        rcases List.mem_cons.1 hx with rfl | hx
        · exact hr
        · exact h1 x hx
      · rw [List.flatten_cons, h2]; rfl
  · rintro ⟨rs, _, rfl⟩
    exact encodeRunes_utf8 rs

theorem utf8_append {a b : List UInt8} (ha : Utf8 a) (hb : Utf8 b) : Utf8 (a ++ b) := by
  obtain ⟨x, hx, rfl⟩ := ha
  obtain ⟨y, hy, rfl⟩ := hb
  refine ⟨x ++ y, ?_, by simp⟩
  intro r hr
  rcases List.mem_append.1 hr with h | h
  · exact hx r h
  · exact hy r h

end Verif.Proofs
