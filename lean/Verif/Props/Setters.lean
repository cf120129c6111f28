import Verif.Model.Tpdu
import Verif.Proofs.Basic

/-! C22: setters of the TPDU. -/

namespace Verif.Props
open Verif.Model Verif.Proofs

theorem mti_table : ∀ n : Nat, n < 256 → ∀ k : Fin 6,
    smsType (FirstOctet.MTI (FirstOctet.WithMTI (UInt8.ofNat n) (byteOf ((k.val : Int) / 2)))) ((k.val : Int) % 2) = byteOf k.val ∧
    (FirstOctet.WithMTI (UInt8.ofNat n) (byteOf ((k.val : Int) / 2))).toNat / 4 = n / 4 := by decide +kernel

/-- C22: after `SetSmsType` of a defined type the TPDU reports that type; only the two MTI bits and the
direction can have changed. -/
theorem C22_set_smsType (t : TPDU) (st : Nat) (h : st ≤ 5) :
    ∃ t', t.SetSmsType st = .ok t' ∧ t'.SmsType = UInt8.ofNat st ∧
      t'.FirstOctet.toNat / 4 = t.FirstOctet.toNat / 4 ∧
      t' = { t with Direction := t'.Direction, FirstOctet := t'.FirstOctet } := by
  refine ⟨_, by unfold TPDU.SetSmsType; rw [if_neg (by omega)], ?_, ?_, rfl⟩
  · have := (mti_table t.FirstOctet.toNat t.FirstOctet.toNat_lt ⟨st, by omega⟩).1
    rw [UInt8.ofNat_toNat, byteOf_natCast] at this
    exact this
  · have := (mti_table t.FirstOctet.toNat t.FirstOctet.toNat_lt ⟨st, by omega⟩).2
    rw [UInt8.ofNat_toNat] at this
    exact this

/-- C22: other values are rejected. -/
theorem C22_set_smsType_invalid (t : TPDU) (st : Int) (h : st < 0 ∨ 5 < st) : t.SetSmsType st = fail .invalid := by
  unfold TPDU.SetSmsType; rw [if_pos h]

theorem vpf_table : ∀ n : Nat, n < 256 → ∀ k : Fin 4,
    FirstOctet.VPF ((andNot (UInt8.ofNat n) FirstOctet.FoVPFMask) ||| ((UInt8.ofNat k.val <<< 3) &&& FirstOctet.FoVPFMask)) = UInt8.ofNat k.val ∧
    ((andNot (UInt8.ofNat n) FirstOctet.FoVPFMask) ||| ((UInt8.ofNat k.val <<< 3) &&& FirstOctet.FoVPFMask)).toNat / 32 = n / 32 ∧
    ((andNot (UInt8.ofNat n) FirstOctet.FoVPFMask) ||| ((UInt8.ofNat k.val <<< 3) &&& FirstOctet.FoVPFMask)).toNat % 8 = n % 8 := by
  decide +kernel

/-- C22: `SetVP` stores the period, announces its format, and changes nothing else. -/
theorem C22_set_vp (t : TPDU) (vp : ValidityPeriod) (h : vp.Format < 4) :
    let t' := t.SetVP vp
    t'.VP = vp ∧ FirstOctet.VPF t'.FirstOctet = vp.Format ∧
    t'.FirstOctet.toNat / 32 = t.FirstOctet.toNat / 32 ∧ t'.FirstOctet.toNat % 8 = t.FirstOctet.toNat % 8 ∧
    t' = { t with VP := vp, FirstOctet := t'.FirstOctet } := by
  have h' : vp.Format.toNat < 4 := UInt8.lt_iff_toNat_lt.mp h
  have := vpf_table t.FirstOctet.toNat t.FirstOctet.toNat_lt ⟨vp.Format.toNat, h'⟩
  simp only [UInt8.ofNat_toNat] at this
  exact ⟨rfl, this.1, this.2.1, this.2.2, rfl⟩

theorem bits_table : ∀ n : Nat, n < 256 →
    (FirstOctet.UDHI (UInt8.ofNat n) = n.testBit 6 ∧
    (UInt8.ofNat n ||| FirstOctet.FoUDHI).toNat = n % 64 + 64 + n / 128 * 128 ∧
    (andNot (UInt8.ofNat n) FirstOctet.FoUDHI).toNat = n % 64 + n / 128 * 128) ∧
    (UInt8.ofNat n ||| PI.PiPID).toNat = n / 2 * 2 + 1 ∧
    (UInt8.ofNat n ||| PI.PiDCS).toNat = n / 4 * 4 + 2 + n % 2 ∧
    (UInt8.ofNat n ||| PI.PiUDL).toNat = n / 8 * 8 + 4 + n % 4 ∧
    (andNot (UInt8.ofNat n) PI.PiUDL).toNat = n / 8 * 8 + n % 4 := by decide +kernel

/-- C22: a non-nil header sets the UDHI bit (bit 6) and the UDL indicator (bit 2 of PI) and nothing else. -/
theorem C22_set_udh_some (t : TPDU) (udh : UDH) :
    let t' := t.SetUDH (some udh)
    t'.UDH = udh ∧ t'.UDHI = true ∧ PI.UDL t'.PI = true ∧
    t'.FirstOctet.toNat = t.FirstOctet.toNat % 64 + 64 + t.FirstOctet.toNat / 128 * 128 ∧
    t'.PI.toNat = t.PI.toNat / 8 * 8 + 4 + t.PI.toNat % 4 ∧
    t' = { t with UDH := udh, PI := t'.PI, FirstOctet := t'.FirstOctet } := by
  have h1 := bits_table t.FirstOctet.toNat t.FirstOctet.toNat_lt
  have h2 := bits_table t.PI.toNat t.PI.toNat_lt
  simp only [UInt8.ofNat_toNat] at h1 h2
  refine ⟨rfl, ?_, ?_, h1.1.2.1, h2.2.2.2.1, rfl⟩
  · show FirstOctet.UDHI (t.FirstOctet ||| FirstOctet.FoUDHI) = true
    revert h1; generalize t.FirstOctet = f; intro _
    revert f; apply forall_u8; decide +kernel
  · show PI.UDL (t.PI ||| PI.PiUDL) = true
    revert h2; generalize t.PI = f; intro _
    revert f; apply forall_u8; decide +kernel

/-- C22: a nil header clears the UDHI bit and nothing else. -/
theorem C22_set_udh_none (t : TPDU) :
    let t' := t.SetUDH none
    t'.UDH = [] ∧ t'.UDHI = false ∧
    t'.FirstOctet.toNat = t.FirstOctet.toNat % 64 + t.FirstOctet.toNat / 128 * 128 ∧
    t' = { t with UDH := [], FirstOctet := t'.FirstOctet } := by
  have h1 := bits_table t.FirstOctet.toNat t.FirstOctet.toNat_lt
  simp only [UInt8.ofNat_toNat] at h1
  refine ⟨rfl, ?_, h1.1.2.2, rfl⟩
  show FirstOctet.UDHI (andNot t.FirstOctet FirstOctet.FoUDHI) = false
  revert h1; generalize t.FirstOctet = f; intro _
  revert f; apply forall_u8; decide +kernel

/-- C22: `SetUD` sets or clears the UDL indicator (bit 2 of PI) and nothing else. -/
theorem C22_set_ud (t : TPDU) (ud : List UInt8) :
    (let t' := t.SetUD (some ud)
     t'.UD = ud ∧ t'.PI.toNat = t.PI.toNat / 8 * 8 + 4 + t.PI.toNat % 4 ∧ t' = { t with UD := ud, PI := t'.PI }) ∧
    (let t' := t.SetUD none
     t'.UD = [] ∧ t'.PI.toNat = t.PI.toNat / 8 * 8 + t.PI.toNat % 4 ∧ t' = { t with UD := [], PI := t'.PI }) := by
  have h2 := bits_table t.PI.toNat t.PI.toNat_lt
  simp only [UInt8.ofNat_toNat] at h2
  exact ⟨⟨rfl, h2.2.2.2.1, rfl⟩, ⟨rfl, h2.2.2.2.2, rfl⟩⟩

/-- C22: `SetPID` and `SetDCS` set the indicator (bits 0 and 1 of PI) and the field and nothing else. -/
theorem C22_set_pid_dcs (t : TPDU) (x : UInt8) :
    (let t' := t.SetPID x
     t'.PID = x ∧ t'.PI.toNat = t.PI.toNat / 2 * 2 + 1 ∧ t' = { t with PID := x, PI := t'.PI }) ∧
    (let t' := t.SetDCS x
     t'.DCS = x ∧ t'.PI.toNat = t.PI.toNat / 4 * 4 + 2 + t.PI.toNat % 2 ∧ t' = { t with DCS := x, PI := t'.PI }) := by
  have h2 := bits_table t.PI.toNat t.PI.toNat_lt
  simp only [UInt8.ofNat_toNat] at h2
  exact ⟨⟨rfl, h2.2.1, rfl⟩, ⟨rfl, h2.2.2.1, rfl⟩⟩

/-- C22: the indicators are bits 0, 1 and 2 of PI, UDHI is bit 6 and the VPF bits 3 and 4 of the first octet. -/
theorem C22_indicators (o : UInt8) :
    PI.PID o = o.toNat.testBit 0 ∧ PI.DCS o = o.toNat.testBit 1 ∧ PI.UDL o = o.toNat.testBit 2 ∧
    FirstOctet.UDHI o = o.toNat.testBit 6 ∧ (FirstOctet.VPF o).toNat = o.toNat / 8 % 4 ∧
    (FirstOctet.MTI o).toNat = o.toNat % 4 := by
  revert o; apply forall_u8; decide +kernel

example : ∃ t', ({ FirstOctet := 0xff } : TPDU).SetSmsType 3 = .ok t' ∧ t'.FirstOctet = 0xfd ∧ t'.Direction = MO := by
  exact ⟨_, rfl, by decide, by decide⟩

end Verif.Props
