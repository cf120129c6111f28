import Verif.Proofs.Ucs2

/-! C07, C08: UCS-2 (UTF-16) text. -/

namespace Verif.Props
open Verif.Model Verif.Model.Ucs2 Verif.Spec Verif.Proofs

/-- C07: decoding inverts encoding, with non-scalar runes replaced by U+FFFD. -/
theorem C07_roundtrip (rs : List Nat) :
    Decode (Encode rs) = ⟨rs.map fun r => if Scalar r then r else 0xFFFD, none⟩ := by
  rw [decode_ok_iff]
  unfold Encode
  have hlt : ∀ u ∈ rs.flatMap Unicode.utf16EncodeRune, u < 65536 := by
    intro u hu
    obtain ⟨r, _, h⟩ := List.mem_flatMap.mp hu
    exact utf16EncodeRune_lt r u h
  refine ⟨by rw [putBE16_length]; omega, ?_⟩
  rw [units_putBE16 _ hlt]
  exact groups_encode rs

/-- C07: encoding is character by character. -/
theorem C07_encode_append (a b : List Nat) : Encode (a ++ b) = Encode a ++ Encode b := by simp [Encode]

/-- C07: a scalar value below 0x10000 is one big-endian unit. -/
theorem C07_encode_bmp (r : Nat) (h : Scalar r) (hr : r < 0x10000) : units (Encode [r]) = [r] ∧ (Encode [r]).length = 2 := by
  unfold Scalar at h
  have e : Unicode.utf16EncodeRune r = [r] := by unfold Unicode.utf16EncodeRune; rw [if_pos (by omega)]
  simp only [Encode, List.flatMap_cons, List.flatMap_nil, List.append_nil, e]
  refine ⟨?_, rfl⟩
  have := units_putBE16 [r] (by simpa using hr)
  simpa using this

/-- C07: a supplementary scalar value is the surrogate pair that stands for it. -/
theorem C07_encode_supplementary (r : Nat) (h : Scalar r) (hr : 0x10000 ≤ r) :
    ∃ hi lo, units (Encode [r]) = [hi, lo] ∧ (Encode [r]).length = 4 ∧ HighSurrogate hi ∧ LowSurrogate lo ∧
      r = 0x10000 + (hi - 0xD800) * 1024 + (lo - 0xDC00) := by
  unfold Scalar at h
  have e : Unicode.utf16EncodeRune r = [0xD800 + (r - 0x10000) / 1024 % 1024, 0xDC00 + (r - 0x10000) % 1024] := by
    unfold Unicode.utf16EncodeRune; rw [if_neg (by omega), if_pos (by omega)]
  simp only [Encode, List.flatMap_cons, List.flatMap_nil, List.append_nil, e]
  refine ⟨0xD800 + (r - 0x10000) / 1024 % 1024, 0xDC00 + (r - 0x10000) % 1024, ?_, rfl, ?_, ?_, by omega⟩
  · have := units_putBE16 [0xD800 + (r - 0x10000) / 1024 % 1024, 0xDC00 + (r - 0x10000) % 1024]
      (by simp; omega)
    simpa using this
  · unfold HighSurrogate; omega
  · unfold LowSurrogate; omega

example : Encode [0x41, 0x1F601, 0xD800] = [0x00, 0x41, 0xd8, 0x3d, 0xde, 0x01, 0xff, 0xfd] := by decide

/-- C08: an invalid-length error is reported exactly on odd-length input. -/
theorem C08_invalid_length (src : List UInt8) :
    (Decode src).err = some .ucs2InvalidLength ↔ src.length % 2 = 1 := by
  constructor
  · intro h
    by_cases he : src.length % 2 = 0
    · obtain ⟨_, _, _, _, _, _, e⟩ := (decode_err_iff src (Decode src).runes _ he).mp
        (by rw [← h])
      cases e
    · omega
  · intro h
    unfold Decode
    rw [if_neg (by omega), if_pos h]

/-- C08: decoding succeeds with `rs` exactly when the input is whole units that group into `rs`. -/
theorem C08_success (src : List UInt8) (rs : List Nat) :
    Decode src = ⟨rs, none⟩ ↔ src.length % 2 = 0 ∧ Groups (units src) rs :=
  decode_ok_iff src rs

/-- C08: on even-length input an error is reported exactly when the input is a decodable prefix followed by
one surrogate unit; it carries those two bytes, and the runes are the decoding of the prefix. -/
theorem C08_dangling (src : List UInt8) (rs : List Nat) (x : Err) (he : src.length % 2 = 0) :
    Decode src = ⟨rs, some x⟩ ↔ ∃ pre h l, src = pre ++ [h, l] ∧ Surrogate (256 * h.toNat + l.toNat) ∧
      Decode pre = ⟨rs, none⟩ ∧ x = .ucs2Dangling [h, l] := by
  rw [decode_err_iff src rs x he]
  constructor
  · rintro ⟨pre, h, l, e, s, g, hx⟩
    exact ⟨pre, h, l, e, s, (decode_ok_iff _ _).mpr ⟨by rw [e] at he; simp at he; omega, g⟩, hx⟩
  · rintro ⟨pre, h, l, e, s, g, hx⟩
    exact ⟨pre, h, l, e, s, ((decode_ok_iff _ _).mp g).2, hx⟩

example : Decode [0x00, 0x41, 0xd8, 0x3d] = ⟨[0x41], some (.ucs2Dangling [0xd8, 0x3d])⟩ := by decide
example : Decode [0x00, 0x41, 0xd8] = ⟨[], some .ucs2InvalidLength⟩ := by decide
example : Decode [0xd8, 0x3d, 0xde, 0x01] = ⟨[0x1F601], none⟩ := by decide +kernel

end Verif.Props
