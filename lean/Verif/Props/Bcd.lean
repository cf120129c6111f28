import Verif.Proofs.Bcd

/-! C04: BCD octets.  A BCD octet holds the tens digit in its low nibble and the units digit in its high
nibble; in the signed form bit 3 is the sign. -/

namespace Verif.Props
open Verif.Model Verif.Model.Bcd Verif.Proofs

/-- C04: `Encode` succeeds exactly on 0..99, with the units in the high nibble and the tens in the low one. -/
theorem C04_encode (u : Int) (b : UInt8) :
    Encode u = .ok b ↔ 0 ≤ u ∧ u ≤ 99 ∧ (b.toNat : Int) = 16 * (u % 10) + u / 10 := by
  rw [bcd_encode]
  by_cases h : 0 ≤ u ∧ u ≤ 99
  · rw [if_pos h]
    obtain ⟨n, rfl⟩ := Int.eq_ofNat_of_zero_le h.1
    rw [Int.toNat_natCast]
    constructor
    · intro e; cases e
      refine ⟨h.1, h.2, ?_⟩
      simp only [UInt8.toNat_ofNat']; omega
    · rintro ⟨_, _, e⟩
      congr 1
      apply UInt8.toNat_inj.mp
      simp only [UInt8.toNat_ofNat']; omega
  · rw [if_neg h]; simp; intros; omega

/-- C04: outside 0..99 `Encode` reports the integer. -/
theorem C04_encode_error (u : Int) (h : u < 0 ∨ 99 < u) : Encode u = fail (.bcdInvalidInteger u) := by
  rw [bcd_encode, if_neg (by omega)]; rfl

/-- C04: `Decode` inverts `Encode`. -/
theorem C04_roundtrip (u : Int) (h0 : 0 ≤ u) (h : u ≤ 99) : ∃ b, Encode u = .ok b ∧ Decode b = .ok u :=
  bcd_roundtrip u h0 h

/-- C04: `Decode` succeeds exactly when both nibbles are decimal digits, with the value they spell. -/
theorem C04_decode (o : UInt8) (v : Int) :
    Decode o = .ok v ↔ o.toNat % 16 ≤ 9 ∧ o.toNat / 16 ≤ 9 ∧ v = 10 * (o.toNat % 16) + o.toNat / 16 := by
  rw [bcd_decode]
  split
  · rename_i h; simp only [Except.ok.injEq, h, true_and]; omega
  · rename_i h; simp; intros; omega

/-- C04: re-encoding a decoded octet returns the octet. -/
theorem C04_decode_encode (o : UInt8) (v : Int) (h : Decode o = .ok v) : Encode v = .ok o := by
  rw [C04_decode] at h
  rw [C04_encode]
  omega

/-- C04: `EncodeSigned` succeeds exactly on -79..79; bit 3 is the sign. -/
theorem C04_encodeSigned (s : Int) (b : UInt8) :
    EncodeSigned s = .ok b ↔ -79 ≤ s ∧ s ≤ 79 ∧
      b.toNat = 16 * (s.natAbs % 10) + (if s < 0 then 8 else 0) + s.natAbs / 10 := by
  rw [bcd_encodeSigned]
  by_cases h : -79 ≤ s ∧ s ≤ 79
  · rw [if_pos h]
    constructor
    · intro e; cases e
      refine ⟨h.1, h.2, ?_⟩
      simp only [UInt8.toNat_ofNat']; split <;> omega
    · rintro ⟨_, _, e⟩
      rw [← e, UInt8.ofNat_toNat]
  · rw [if_neg h]; simp; intros; omega

@[inherit_doc C04_encodeSigned]
theorem C04_encodeSigned_error (s : Int) (h : s < -79 ∨ 79 < s) :
    EncodeSigned s = fail (.bcdInvalidInteger s) := by
  rw [bcd_encodeSigned, if_neg (by omega)]; rfl

/-- C04: `DecodeSigned` inverts `EncodeSigned`. -/
theorem C04_roundtripSigned (s : Int) (h0 : -79 ≤ s) (h : s ≤ 79) :
    ∃ b, EncodeSigned s = .ok b ∧ DecodeSigned b = .ok s :=
  bcd_roundtripSigned s h0 h

/-- C04: `DecodeSigned` succeeds exactly when the units nibble is a decimal digit. -/
theorem C04_decodeSigned (o : UInt8) (v : Int) :
    DecodeSigned o = .ok v ↔ o.toNat / 16 ≤ 9 ∧
      v = (if o.toNat / 8 % 2 = 0 then 1 else -1) * (10 * (o.toNat % 8) + o.toNat / 16 : Int) := by
  rw [bcd_decodeSigned]
  split
  · rename_i h; simp only [Except.ok.injEq, h, true_and]; split <;> omega
  · rename_i h; simp; intros; omega

/-- C04: re-encoding a decoded signed octet returns the octet, except minus zero (0x08). -/
theorem C04_decodeSigned_encode (o : UInt8) (v : Int) (h : DecodeSigned o = .ok v) (hz : o ≠ 0x08) :
    EncodeSigned v = .ok o := by
  have t := bcd_decS_enc_table o.toNat o.toNat_lt (fun e => hz (UInt8.toNat_inj.mp e))
  rw [UInt8.ofNat_toNat, h] at t
  exact t

example : DecodeSigned 0x2c = .ok (-42) ∧ EncodeSigned (-42) = .ok 0x2c := by decide
example : Decode 0x21 = .ok 12 ∧ Encode 12 = .ok 0x21 ∧ Decode 0x2a = fail (.bcdInvalidOctet 0x2a) := by decide

end Verif.Props
