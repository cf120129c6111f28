import Verif.Proofs.MarshalTotal

/-! C71: when MarshalBinary succeeds. -/

namespace Verif.Props
open Verif.Model Verif.Spec Verif.Proofs

/-- C71: `MarshalBinary` of any TPDU, whatever its fields hold, returns octets or an error; it does not panic. -/
theorem C71_no_panic (t : TPDU) : (∃ p, t.MarshalBinary = .ok p) ∨ ∃ e, t.MarshalBinary = .error (.err e) := by
  rcases total_marshal t with ⟨_, h⟩ | ⟨_, h⟩
  · exact .inl h
  · exact .inr h

/-- C71: it returns octets exactly when each field that the type has is encodable.  In particular the lengths
of addresses and user data are not checked. -/
theorem C71_exact (t : TPDU) : (∃ p, t.MarshalBinary = .ok p) ↔ Encodable t := by
  rcases total_marshal t with ⟨h, p, hp⟩ | ⟨h, e, he⟩
  · exact ⟨fun _ => h, fun _ => ⟨p, hp⟩⟩
  · exact ⟨fun ⟨p, hp⟩ => by (rw [he] at hp; cases hp), fun h2 => absurd h2 h⟩

/-- C71: for an enhanced period in hours, minutes and seconds, of fewer than 100 hours or without a fraction of a
second, this means that it is not negative in whole seconds, hours counting modulo 100. -/
theorem C71_period (v : ValidityPeriod) (hf : v.Format = 1) (he : v.EFI.toNat % 8 = 3)
    (h : -(100 * hour) < v.Duration ∧ v.Duration < 100 * hour ∨ ∃ n : Int, v.Duration = n * second ∧ -2 ^ 34 < n ∧ n < 2 ^ 34) :
    (∃ p, v.MarshalBinary = .ok p) ↔ -second < v.Duration.tmod (100 * hour) := by
  have hs : second = 1000000000 := rfl
  have hh : 100 * hour = 360000000000000 := rfl
  have hw : Float.whole v.Duration hour = v.Duration.tdiv hour ∧ Float.whole v.Duration minute = v.Duration.tdiv minute ∧
      Float.whole v.Duration second = v.Duration.tdiv second := by
    rcases h with ⟨h1, h2⟩ | ⟨n, h1, h2, h3⟩
    · exact Float.whole_small v.Duration (by omega)
    · exact Float.whole_seconds v.Duration n (by omega) h1
  obtain ⟨w1, w2, w3⟩ := hw
  have hv : VpEnc v ↔ -second < v.Duration.tmod (100 * hour) := by
    unfold VpEnc
    rw [hf, he, w1, w2, w3]
    simp only [VpfAbsolute, VpfNotPresent, VpfRelative, VpfEnhanced]
    generalize v.Duration = d
    simp only [hour, minute, hs]
    rcases Int.lt_or_le d 0 with h | h
    · obtain ⟨n, rfl⟩ : ∃ n : Nat, d = -(n:Int) := ⟨d.natAbs, by omega⟩
      rw [Int.neg_tmod, Int.neg_tdiv, Int.neg_tdiv, Int.neg_tdiv,
        Int.tdiv_eq_ediv_of_nonneg (by omega), Int.tdiv_eq_ediv_of_nonneg (by omega),
        Int.tdiv_eq_ediv_of_nonneg (by omega), Int.tmod_eq_emod_of_nonneg (by omega)]
      simp
      omega
    · rw [Int.tmod_eq_emod_of_nonneg (by omega)]
      simp [h]
      omega
  rw [← hv]
  rcases total_vp v with ⟨h, p, hp⟩ | ⟨h, e, he⟩
  · exact ⟨fun _ => h, fun _ => ⟨p, hp⟩⟩
  · exact ⟨fun ⟨p, hp⟩ => by (rw [he] at hp; cases hp), fun h2 => absurd h2 h⟩

/-- The range is needed: of 200000 hours less a nanosecond, negative, rounding makes 200000 hours, which count as none;
a duration with the same fraction in the range has no encoding. -/
theorem C71_rounding :
    (⟨1, {}, -(200000 * hour - 1), 3⟩ : ValidityPeriod).MarshalBinary = .ok [3, 0, 0, 0, 0, 0, 0] ∧
    ¬ -second < (-(200000 * hour - 1)).tmod (100 * hour) ∧
    ¬ ∃ p, (⟨1, {}, -(100 * hour - 1), 3⟩ : ValidityPeriod).MarshalBinary = .ok p := by
  refine ⟨by decide +kernel, by decide +kernel, ?_⟩
  rw [C71_period _ rfl rfl (.inl (by decide))]
  decide +kernel

/-- An SMS-SUBMIT to 123 of the octet "A", and the same with a letter for a digit, a reserved coding group and
odd UCS-2. -/
example : Encodable { Direction := MO, FirstOctet := 1, DA := ⟨0x91, [0x31, 0x32, 0x33]⟩, DCS := 4, UD := [0x41] } := by
  refine .inr (.inr (.inr (.inl ⟨by decide, ?_, ⟨by decide, by decide⟩, .inl rfl⟩)))
  rw [AddrEnc, if_neg (by decide)]; decide
example : (({ Direction := MO, FirstOctet := 1, DA := ⟨0x91, [0x41]⟩, DCS := 4, UD := [0x41] } : TPDU).MarshalBinary =
      fail (.encode "SmsSubmit.da.addr" (.semiInvalidDigit 0x41))) ∧
    (({ Direction := MO, FirstOctet := 1, DCS := 0x80, UD := [0x41] } : TPDU).MarshalBinary =
      fail (.encode "SmsSubmit.ud.alphabet" .invalid)) ∧
    ({ Direction := MO, FirstOctet := 1, DCS := 8, UD := [0x41] } : TPDU).MarshalBinary =
      fail (.encode "SmsSubmit.ud.sm" .oddUCS2Length) := by decide +kernel

end Verif.Props
