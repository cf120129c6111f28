import Verif.Spec.Carried
import Verif.Spec.WellFormed
import Verif.Props.ValidityPeriod

/-! C101: what a validity period that is set arrives as. -/

namespace Verif.Props
open Verif.Model Verif.Proofs Verif.Spec

/-! Helpers. -/

theorem arrives_ok {v : ValidityPeriod} (h : VpOk v) : ArrivesAs v v := by
  obtain ⟨p, h1, h2⟩ := C19_roundtrip v h []
  refine ⟨p, h1, fun rest => ?_⟩
  obtain ⟨p', h1', h2'⟩ := C19_roundtrip v h rest
  rw [h1] at h1'; cases h1'
  exact h2'

theorem ArrivesAs.congr {v v' w : ValidityPeriod} (hf : v.Format = v'.Format) (hm : v.MarshalBinary = v'.MarshalBinary)
    (h : ArrivesAs v' w) : ArrivesAs v w := by
  obtain ⟨p, h1, h2⟩ := h
  exact ⟨p, hm.trans h1, fun rest => hf ▸ h2 rest⟩

theorem ArrivesAs.unique {v w w' : ValidityPeriod} (h : ArrivesAs v w) (h' : ArrivesAs v w') : w = w' := by
  obtain ⟨p, h1, h2⟩ := h
  obtain ⟨p', h1', h2'⟩ := h'
  rw [h1] at h1'; cases h1'
  have := (h2 []).symm.trans (h2' [])
  cases this; rfl

theorem efi_and (efi : UInt8) (n : UInt8) (_ : n.toNat < 8) : efi &&& 7 = n ↔ efi.toNat % 8 = n.toNat := by
  have : ∀ efi : UInt8, (efi &&& 7).toNat = efi.toNat % 8 := by apply forall_u8; decide +kernel
  rw [← UInt8.toNat_inj, this]

theorem marshal_seconds (d : Int) (efi : UInt8) (he : efi.toNat % 8 = 2) :
    ValidityPeriod.MarshalBinary ⟨1, {}, d, efi⟩ =
      .ok [efi, byteOf (if d.tdiv second > 255 then 255 else d.tdiv second), 0, 0, 0, 0, 0] := by
  have he : efi &&& 7 = 2 := (efi_and efi 2 (by decide)).2 he
  unfold ValidityPeriod.MarshalBinary
  simp only
  rw [if_neg (by decide), if_pos (by decide), he, if_neg (by decide), if_neg (by decide), if_pos (by decide)]

theorem marshal_relative (d : Int) (efi : UInt8) (he : efi.toNat % 8 = 1) :
    ValidityPeriod.MarshalBinary ⟨1, {}, d, efi⟩ = .ok [efi, durationToRelative d, 0, 0, 0, 0, 0] := by
  have he : efi &&& 7 = 1 := (efi_and efi 1 (by decide)).2 he
  unfold ValidityPeriod.MarshalBinary
  simp only
  rw [if_neg (by decide), if_pos (by decide), he, if_neg (by decide), if_pos (by decide)]

theorem marshal_hms (d d' : Int) (efi : UInt8) (he : efi.toNat % 8 = 3)
    (h1 : (Float.whole d hour).tmod 100 = (Float.whole d' hour).tmod 100)
    (h2 : (Float.whole d minute).tmod 60 = (Float.whole d' minute).tmod 60)
    (h3 : (Float.whole d second).tmod 60 = (Float.whole d' second).tmod 60) :
    ValidityPeriod.MarshalBinary ⟨1, {}, d, efi⟩ = ValidityPeriod.MarshalBinary ⟨1, {}, d', efi⟩ := by
  have he : efi &&& 7 = 3 := (efi_and efi 3 (by decide)).2 he
  unfold ValidityPeriod.MarshalBinary
  simp only
  rw [h1, h2, h3]
  rw [if_neg (by decide), if_pos (by decide), he, if_neg (by decide), if_neg (by decide), if_neg (by decide), if_pos (by decide)]
  rfl

/-! The property. -/

/-- C101: setting a period leaves nothing of what it was before. -/
theorem C101_set (v : ValidityPeriod) (t : GoTime) (d : Int) (efi : UInt8) :
    v.SetAbsolute t = { Format := 3, Time := t, Duration := 0, EFI := 0 } ∧
    v.SetRelative d = { Format := 2, Time := {}, Duration := d, EFI := 0 } ∧
    v.SetEnhanced d efi = { Format := 1, Time := {}, Duration := d, EFI := efi } := ⟨rfl, rfl, rfl⟩

/-- C101: an absolute period of a year from 1970 to 2069, whole seconds and an offset of up to 79 quarters of an hour
arrives as it was set. -/
theorem C101_absolute (v : ValidityPeriod) (t : GoTime) (h : TimeOk t) : ArrivesAs (v.SetAbsolute t) (v.SetAbsolute t) :=
  arrives_ok (.absolute t h)

/-- C101: a relative period arrives as one of the 256 periods that have a code (`C18_codes`), namely the longest that
does not exceed it if it is ten minutes or longer. -/
theorem C101_relative_partial (v : ValidityPeriod) (d : Int) : ∃ c : UInt8,
    ArrivesAs (v.SetRelative d) (v.SetRelative (relativeToDuration c)) ∧
    (10 * minute ≤ d → relativeToDuration c ≤ d ∧ ∀ c', relativeToDuration c' ≤ d → relativeToDuration c' ≤ relativeToDuration c) := by
  refine ⟨durationToRelative d, ⟨[durationToRelative d], ?_, fun rest => ?_⟩, C18_floor_partial d⟩
  · rw [(C101_set v {} d 0).2.1]; rfl
  · rfl

/-- C101: so does an enhanced period of the relative kind. -/
theorem C101_enhanced_relative_partial (v : ValidityPeriod) (d : Int) (efi : UInt8) (he : efi.toNat % 8 = 1) : ∃ c : UInt8,
    ArrivesAs (v.SetEnhanced d efi) (v.SetEnhanced (relativeToDuration c) efi) ∧
    (10 * minute ≤ d → relativeToDuration c ≤ d ∧ ∀ c', relativeToDuration c' ≤ d → relativeToDuration c' ≤ relativeToDuration c) := by
  refine ⟨durationToRelative d, ⟨[efi, durationToRelative d, 0, 0, 0, 0, 0], marshal_relative d efi he, fun rest => ?_⟩, C18_floor_partial d⟩
  have he : efi &&& 7 = 1 := (efi_and efi 1 (by decide)).2 he
  show ValidityPeriod.UnmarshalBinary {} _ 1 = _
  unfold ValidityPeriod.UnmarshalBinary ValidityPeriod.unmarshalVPEnhanced
  simp only
  rw [if_neg (by decide), if_pos (by decide), if_neg (by simp)]
  simp only [List.cons_append, idx_zero_cons, ok_bind, he]
  rw [if_neg (by decide), if_pos (by decide)]
  simp only [idx_one_cons, ok_bind, pure_ok, List.nil_append, (checkZero_ok efi (durationToRelative d) 0 rest).2.1]
  rfl

/-- C101: an enhanced period in seconds arrives without its fraction of a second, and as 255 seconds if it is longer. -/
theorem C101_seconds_partial (v : ValidityPeriod) (d : Int) (efi : UInt8) (he : efi.toNat % 8 = 2) (h : 0 ≤ d) :
    ArrivesAs (v.SetEnhanced d efi) (v.SetEnhanced (min (d / second) 255 * second) efi) := by
  have hs : second = 1000000000 := rfl
  obtain ⟨n, hn⟩ : ∃ n : Nat, min (d / second) 255 = n := ⟨(min (d / second) 255).toNat, by rw [hs]; omega⟩
  have hn' : n ≤ 255 := by omega
  have ok := arrives_ok (.enhancedSeconds efi n ((efi_and efi 2 (by decide)).2 he) hn')
  rw [hn, Int.mul_comm]
  refine ArrivesAs.congr (v' := ⟨1, {}, second * n, efi⟩) rfl ?_ ok
  show ValidityPeriod.MarshalBinary ⟨1, {}, d, efi⟩ = _
  have e1 : d.tdiv second = d / second := Int.tdiv_eq_ediv_of_nonneg h
  have e2 : (second * (n : Int)).tdiv second = n := Int.mul_tdiv_cancel_left _ (by decide)
  rw [marshal_seconds d efi he, marshal_seconds _ efi he, e1, e2, if_neg (show ¬ (n : Int) > 255 by omega), ← hn]
  congr 4
  split <;> omega

/-- C101: the period in seconds that arrives is exactly for periods that are not negative no longer than the one set. -/
theorem C101_seconds_exact (v : ValidityPeriod) (d : Int) (efi : UInt8) (he : efi.toNat % 8 = 2) :
    ∃ d', ArrivesAs (v.SetEnhanced d efi) (v.SetEnhanced d' efi) ∧ (d' ≤ d ↔ 0 ≤ d) := by
  have hs : second = 1000000000 := rfl
  by_cases h : 0 ≤ d
  · refine ⟨_, C101_seconds_partial v d efi he h, iff_of_true ?_ h⟩
    rw [hs]; omega
  · refine ⟨second * (byteOf (d.tdiv second)).toNat, ?_, iff_of_false (by rw [hs]; omega) h⟩
    have ok := arrives_ok (.enhancedSeconds efi (byteOf (d.tdiv second)).toNat ((efi_and efi 2 (by decide)).2 he)
      (Nat.le_of_lt_succ (UInt8.toNat_lt _)))
    refine ArrivesAs.congr (v' := ⟨1, {}, second * (byteOf (d.tdiv second)).toNat, efi⟩) rfl ?_ ok
    show ValidityPeriod.MarshalBinary ⟨1, {}, d, efi⟩ = _
    have hd : d.tdiv second ≤ 0 := by
      obtain ⟨n, rfl⟩ : ∃ n : Nat, d = -(n : Int) := ⟨d.natAbs, by omega⟩
      rw [Int.neg_tdiv, Int.tdiv_eq_ediv_of_nonneg (by omega), hs]; omega
    have hb := UInt8.toNat_lt (byteOf (d.tdiv second))
    have e2 : (second * ((byteOf (d.tdiv second)).toNat : Int)).tdiv second = (byteOf (d.tdiv second)).toNat :=
      Int.mul_tdiv_cancel_left _ (by decide)
    rw [marshal_seconds d efi he, marshal_seconds _ efi he, e2, if_neg (show ¬ d.tdiv second > 255 by omega),
      if_neg (show ¬ ((byteOf (d.tdiv second)).toNat : Int) > 255 by omega)]
    congr 3
    rw [← UInt8.toNat_inj, toNat_byteOf (i := ((byteOf _).toNat : Int))]
    omega

/-- C101: an enhanced period in hours, minutes and seconds of less than 100 hours arrives without its fraction of a
second. -/
theorem C101_hms_partial (v : ValidityPeriod) (d : Int) (efi : UInt8) (he : efi.toNat % 8 = 3) (h : 0 ≤ d) (h' : d < 100 * hour) :
    ArrivesAs (v.SetEnhanced d efi) (v.SetEnhanced (d / second * second) efi) := by
  have hs : second = 1000000000 := rfl
  have hh : 100 * hour = 360000000000000 := rfl
  obtain ⟨n, hn⟩ : ∃ n : Nat, d / second = n := ⟨(d / second).toNat, by rw [hs]; omega⟩
  have hn' : n < 100 * 3600 := by rw [hs] at hn; omega
  have ok := arrives_ok (.enhancedHHMMSS efi n ((efi_and efi 3 (by decide)).2 he) hn')
  rw [hn, Int.mul_comm]
  refine ArrivesAs.congr (v' := ⟨1, {}, second * n, efi⟩) rfl ?_ ok
  obtain ⟨w1, w2, w3⟩ := Float.whole_small d (by omega)
  obtain ⟨x1, x2, x3⟩ := Float.whole_small (second * n) (by rw [hs]; omega)
  have hp : 0 ≤ second * (n : Int) := by rw [hs]; omega
  refine marshal_hms d _ efi he ?_ ?_ ?_
  · rw [w1, x1, Int.tdiv_eq_ediv_of_nonneg h, Int.tdiv_eq_ediv_of_nonneg hp]
    congr 1; simp only [hour, minute, hs] at *; omega
  · rw [w2, x2, Int.tdiv_eq_ediv_of_nonneg h, Int.tdiv_eq_ediv_of_nonneg hp]
    congr 1; simp only [minute, hs] at *; omega
  · rw [w3, x3, Int.tdiv_eq_ediv_of_nonneg h, Int.tdiv_eq_ediv_of_nonneg hp]
    congr 1; simp only [hs] at *; omega

/-- C101: a longer one, of whole seconds, loses all multiples of 100 hours. -/
theorem C101_hms_wraps (v : ValidityPeriod) (n : Nat) (efi : UInt8) (he : efi.toNat % 8 = 3) (h : n < 2 ^ 34) :
    ArrivesAs (v.SetEnhanced (n * second) efi) (v.SetEnhanced ((n % 360000 : Nat) * second) efi) := by
  have hs : second = 1000000000 := rfl
  have ok := arrives_ok (.enhancedHHMMSS efi (n % 360000) ((efi_and efi 3 (by decide)).2 he) (by omega))
  rw [Int.mul_comm ((n % 360000 : Nat) : Int), Int.mul_comm]
  refine ArrivesAs.congr (v' := ⟨1, {}, second * ((n % 360000 : Nat) : Int), efi⟩) rfl ?_ ok
  obtain ⟨w1, w2, w3⟩ := Float.whole_seconds (second * n) n (by omega) (Int.mul_comm _ _)
  obtain ⟨x1, x2, x3⟩ := Float.whole_seconds (second * ((n % 360000 : Nat) : Int)) (n % 360000 : Nat) (by omega) (Int.mul_comm _ _)
  have hp : 0 ≤ second * (n : Int) := by rw [hs]; omega
  have hp' : 0 ≤ second * ((n % 360000 : Nat) : Int) := by rw [hs]; omega
  refine marshal_hms (second * n) _ efi he ?_ ?_ ?_
  · rw [w1, x1, Int.tdiv_eq_ediv_of_nonneg hp, Int.tdiv_eq_ediv_of_nonneg hp', Int.tmod_eq_emod_of_nonneg, Int.tmod_eq_emod_of_nonneg]
    all_goals simp only [hour, minute, hs]; omega
  · rw [w2, x2, Int.tdiv_eq_ediv_of_nonneg hp, Int.tdiv_eq_ediv_of_nonneg hp', Int.tmod_eq_emod_of_nonneg, Int.tmod_eq_emod_of_nonneg]
    all_goals simp only [minute, hs]; omega
  · rw [w3, x3, Int.tdiv_eq_ediv_of_nonneg hp, Int.tdiv_eq_ediv_of_nonneg hp', Int.tmod_eq_emod_of_nonneg, Int.tmod_eq_emod_of_nonneg]
    all_goals rw [hs]; omega

/-- C101: an enhanced period of the kind "none" arrives as none, and of the reserved kinds has no encoding. -/
theorem C101_other_kinds (v : ValidityPeriod) (d : Int) (efi : UInt8) :
    (efi.toNat % 8 = 0 → ArrivesAs (v.SetEnhanced d efi) (v.SetEnhanced 0 efi)) ∧
    (3 < efi.toNat % 8 → (v.SetEnhanced d efi).MarshalBinary = fail (encodeError "fi" .invalid)) := by
  constructor
  · intro he
    have he : efi &&& 7 = 0 := (efi_and efi 0 (by decide)).2 he
    refine ArrivesAs.congr (v' := ⟨1, {}, 0, efi⟩) rfl ?_ (arrives_ok (.enhancedNone efi he))
    show ValidityPeriod.MarshalBinary ⟨1, {}, d, efi⟩ = _
    unfold ValidityPeriod.MarshalBinary
    simp only
    rw [if_neg (by decide), if_pos (by decide), he]
    rfl
  · intro he
    have h : ∀ efi : UInt8, 3 < efi.toNat % 8 → efi &&& 7 > EvpfRelativeHHMMSS := by apply forall_u8; decide +kernel
    show ValidityPeriod.MarshalBinary ⟨1, {}, d, efi⟩ = _
    unfold ValidityPeriod.MarshalBinary
    simp only
    rw [if_neg (by decide), if_pos (by decide), if_pos (h efi he)]

/-- C101: what package time computes with floating point numbers is the whole hours, minutes and seconds if there
are fewer than 100 hours or no fraction of a second. -/
theorem C101_float_partial (d : Int) (h : -(100 * hour) < d ∧ d < 100 * hour ∨ ∃ n : Int, d = n * second ∧ -2 ^ 34 < n ∧ n < 2 ^ 34) :
    Float.whole d hour = d.tdiv hour ∧ Float.whole d minute = d.tdiv minute ∧ Float.whole d second = d.tdiv second := by
  have hh : 100 * hour = 360000000000000 := rfl
  rcases h with ⟨h1, h2⟩ | ⟨n, h1, h2, h3⟩
  · exact Float.whole_small d (by omega)
  · exact Float.whole_seconds d n (by omega) h1

/-- C101 is false as stated: five minutes arrive as ten, minus one second as 255 seconds, minus five minutes as 62
weeks, 100 hours as none, and 4097 hours less a nanosecond, of which rounding makes 4097 hours, as 97:59:59. -/
theorem C101_counterexample :
    ArrivesAs (ValidityPeriod.SetRelative {} (5 * minute)) (ValidityPeriod.SetRelative {} (10 * minute)) ∧
    ArrivesAs (ValidityPeriod.SetRelative {} (-5 * minute)) (ValidityPeriod.SetRelative {} (62 * 7 * 24 * hour)) ∧
    ArrivesAs (ValidityPeriod.SetEnhanced {} (-second) 2) (ValidityPeriod.SetEnhanced {} (255 * second) 2) ∧
    ArrivesAs (ValidityPeriod.SetEnhanced {} (100 * hour) 3) (ValidityPeriod.SetEnhanced {} 0 3) ∧
    ArrivesAs (ValidityPeriod.SetEnhanced {} (4097 * hour - 1) 3) (ValidityPeriod.SetEnhanced {} (98 * hour - second) 3) := by
  refine ⟨⟨[1], by decide, fun rest => rfl⟩, ⟨[254], by decide, fun rest => rfl⟩, ⟨[2, 255, 0, 0, 0, 0, 0], by decide, fun rest => rfl⟩, ?_, ?_⟩
  · exact C101_hms_wraps {} 360000 3 (by decide) (by decide)
  · refine ArrivesAs.congr (v' := ⟨1, {}, second * (352799 : Nat), 3⟩) rfl ?_ (arrives_ok (.enhancedHHMMSS 3 352799 (by decide) (by decide)))
    decide +kernel

/-! An hour and a half and three quarters of a second, in hours, minutes and seconds with a functionality indicator
that also asks for a single shot. -/
example : 0 ≤ hour + 30 * minute + 750000000 ∧ hour + 30 * minute + 750000000 < 100 * hour ∧ (0x43 : UInt8).toNat % 8 = 3 ∧
    ((⟨2, ⟨5, 0, 0⟩, 7, 9⟩ : ValidityPeriod).SetEnhanced (hour + 30 * minute + 750000000) 0x43).MarshalBinary =
      .ok [0x43, 0x10, 0x03, 0x00, 0, 0, 0] := by decide +kernel

end Verif.Props
