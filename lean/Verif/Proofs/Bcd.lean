import Verif.Model.Bcd
import Verif.Proofs.Basic

/-! Helper lemmas for BCD octets. -/

namespace Verif.Proofs
open Verif.Model Verif.Model.Bcd

theorem bcd_enc_table : ∀ n : Nat, n < 100 →
    Encode (n : Int) = .ok (UInt8.ofNat (16 * (n % 10) + n / 10)) ∧
    Decode (UInt8.ofNat (16 * (n % 10) + n / 10)) = .ok (n : Int) := by decide +kernel

theorem bcd_dec_table : ∀ n : Nat, n < 256 →
    (n % 16 ≤ 9 ∧ n / 16 ≤ 9 → Decode (UInt8.ofNat n) = .ok ((10 * (n % 16) + n / 16 : Nat) : Int)) ∧
    (¬ (n % 16 ≤ 9 ∧ n / 16 ≤ 9) → Decode (UInt8.ofNat n) = .error (.err (.bcdInvalidOctet (UInt8.ofNat n)))) := by
  decide +kernel

theorem bcd_encS_table : ∀ n : Nat, n < 80 →
    EncodeSigned (n : Int) = .ok (UInt8.ofNat (16 * (n % 10) + n / 10)) ∧
    (n ≠ 0 → EncodeSigned (-(n : Int)) = .ok (UInt8.ofNat (16 * (n % 10) + 8 + n / 10))) ∧
    DecodeSigned (UInt8.ofNat (16 * (n % 10) + n / 10)) = .ok (n : Int) ∧
    DecodeSigned (UInt8.ofNat (16 * (n % 10) + 8 + n / 10)) = .ok (-(n : Int)) := by decide +kernel

theorem bcd_decS_table : ∀ n : Nat, n < 256 →
    (n / 16 ≤ 9 → DecodeSigned (UInt8.ofNat n) =
      .ok (if n / 8 % 2 = 0 then ((10 * (n % 8) + n / 16 : Nat) : Int) else -((10 * (n % 8) + n / 16 : Nat) : Int))) ∧
    (¬ n / 16 ≤ 9 → DecodeSigned (UInt8.ofNat n) = .error (.err (.bcdInvalidOctet (UInt8.ofNat n)))) := by
  decide +kernel

theorem bcd_decS_enc_table : ∀ n : Nat, n < 256 → n ≠ 8 →
    match DecodeSigned (UInt8.ofNat n) with
    | .ok v => EncodeSigned v = .ok (UInt8.ofNat n)
    | .error _ => True := by
  intro n h1 h2
  have : ∀ n : Nat, n < 256 → n ≠ 8 → (match DecodeSigned (UInt8.ofNat n) with
    | .ok v => decide (EncodeSigned v = .ok (UInt8.ofNat n))
    | .error _ => true) = true := by decide +kernel
  have := this n h1 h2
  split <;> simp_all

theorem bcd_decode (o : UInt8) :
    Decode o = if o.toNat % 16 ≤ 9 ∧ o.toNat / 16 ≤ 9 then .ok ((10 * (o.toNat % 16) + o.toNat / 16 : Nat) : Int)
      else .error (.err (.bcdInvalidOctet o)) := by
  have h := bcd_dec_table o.toNat o.toNat_lt
  rw [UInt8.ofNat_toNat] at h
  split
  · exact h.1 ‹_›
  · exact h.2 ‹_›

theorem bcd_decodeSigned (o : UInt8) :
    DecodeSigned o = if o.toNat / 16 ≤ 9 then
        .ok (if o.toNat / 8 % 2 = 0 then ((10 * (o.toNat % 8) + o.toNat / 16 : Nat) : Int)
          else -((10 * (o.toNat % 8) + o.toNat / 16 : Nat) : Int))
      else .error (.err (.bcdInvalidOctet o)) := by
  have h := bcd_decS_table o.toNat o.toNat_lt
  rw [UInt8.ofNat_toNat] at h
  split
  · exact h.1 ‹_›
  · exact h.2 ‹_›

theorem bcd_encode (u : Int) :
    Encode u = if 0 ≤ u ∧ u ≤ 99 then .ok (UInt8.ofNat (16 * (u.toNat % 10) + u.toNat / 10))
      else .error (.err (.bcdInvalidInteger u)) := by
  by_cases h : 0 ≤ u ∧ u ≤ 99
  · rw [if_pos h]
    have := (bcd_enc_table u.toNat (by omega)).1
    rwa [Int.toNat_of_nonneg h.1] at this
  · rw [if_neg h]; unfold Encode; rw [if_pos (by omega)]; rfl

theorem bcd_encodeSigned (s : Int) :
    EncodeSigned s = if -79 ≤ s ∧ s ≤ 79 then
        .ok (UInt8.ofNat (16 * (s.natAbs % 10) + (if s < 0 then 8 else 0) + s.natAbs / 10))
      else .error (.err (.bcdInvalidInteger s)) := by
  by_cases h : -79 ≤ s ∧ s ≤ 79
  · rw [if_pos h]
    have t := bcd_encS_table s.natAbs (by omega)
    by_cases hs : s < 0
    · rw [if_pos hs]
      have := t.2.1 (by omega)
      have e : -((s.natAbs : Nat) : Int) = s := by omega
      rwa [e] at this
    · rw [if_neg hs]
      have := t.1
      have e : ((s.natAbs : Nat) : Int) = s := by omega
      rw [e] at this
      simpa using this
  · rw [if_neg h]; unfold EncodeSigned; rw [if_pos (by omega)]; rfl

theorem bcd_decode_encode (n : Nat) (h : n < 100) :
    Decode (UInt8.ofNat (16 * (n % 10) + n / 10)) = .ok (n : Int) := (bcd_enc_table n h).2

theorem bcd_roundtrip (u : Int) (h0 : 0 ≤ u) (h : u ≤ 99) : ∃ b, Encode u = .ok b ∧ Decode b = .ok u := by
  refine ⟨_, (bcd_encode u).trans (if_pos ⟨h0, h⟩), ?_⟩
  have := bcd_decode_encode u.toNat (by omega)
  rwa [Int.toNat_of_nonneg h0] at this

theorem bcd_roundtripSigned (s : Int) (h0 : -79 ≤ s) (h : s ≤ 79) :
    ∃ b, EncodeSigned s = .ok b ∧ DecodeSigned b = .ok s := by
  refine ⟨_, (bcd_encodeSigned s).trans (if_pos ⟨h0, h⟩), ?_⟩
  have t := bcd_encS_table s.natAbs (by omega)
  by_cases hs : s < 0
  · rw [if_pos hs, t.2.2.2]; congr 1; omega
  · rw [if_neg hs, Nat.add_zero, t.2.2.1]; congr 1; omega

end Verif.Proofs
