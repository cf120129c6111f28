import Verif.Proofs.ValidityPeriod
import Verif.Spec.WellFormed

/-! C18, C19: validity periods. -/

namespace Verif.Props
open Verif.Model Verif.Spec Verif.Proofs

/-- C18 is false as stated: a period of five minutes is encoded as ten. -/
theorem C18_counterexample_overshoot :
    ∃ d, 5 * minute ≤ d ∧ relativeToDuration (durationToRelative d) = 10 * minute ∧
      relativeToDuration (durationToRelative d) > d := ⟨5 * minute, by decide⟩

/-- C18 is false as stated: code 0 (five minutes) re-encodes as code 1. -/
theorem C18_counterexample_code : durationToRelative (relativeToDuration 0) = 1 := by decide

/-- The meaning of the 256 codes (TS 23.040 9.2.3.12.1). -/
theorem C18_codes (c : UInt8) : relativeToDuration c = minute * (
    if c.toNat ≤ 143 then 5 * ((c.toNat : Int) + 1)
    else if c.toNat ≤ 167 then 12 * 60 + 30 * ((c.toNat : Int) - 143)
    else if c.toNat ≤ 196 then 24 * 60 * ((c.toNat : Int) - 166)
    else 7 * 24 * 60 * ((c.toNat : Int) - 192)) := by
  rw [rel_eq]
  congr 1
  split
  · rfl
  split
  · omega
  split <;> omega

/-- C18 (partial, missing: 5 ≤ d < 10 minutes): the decoded period never exceeds the requested one and is
the longest representable period with that property. -/
theorem C18_floor_partial (d : Int) (h : 10 * minute ≤ d) :
    relativeToDuration (durationToRelative d) ≤ d ∧
    ∀ c, relativeToDuration c ≤ d → relativeToDuration c ≤ relativeToDuration (durationToRelative d) := by
  have h' : 600 * second ≤ d := by
    have e : 10 * minute = 600 * second := by decide
    omega
  refine ⟨?_, rel_greatest d h'⟩
  rw [rel_floor d h']
  have hs : second = 1000000000 := rfl
  simp only [hs] at *
  split
  · omega
  split
  · omega
  split
  · omega
  split
  · omega
  split <;> omega

/-- C18 (partial, missing: 5 ≤ d < 10 minutes): less than one step of the scale in use is lost: five
minutes up to 12 hours, half an hour up to 24 hours, a day up to 30 days, a week up to 63 weeks. -/
theorem C18_step_partial (d : Int) (h : 10 * minute ≤ d) (h' : d < 63 * 7 * 24 * hour) :
    d - relativeToDuration (durationToRelative d) <
      if d < 12 * hour then 5 * minute else if d < 24 * hour then 30 * minute
      else if d < 30 * 24 * hour then 24 * hour else 7 * 24 * hour := by
  have hs : second = 1000000000 := rfl
  have h'' : 600 * second ≤ d := by
    have e : 10 * minute = 600 * second := by decide
    omega
  rw [rel_floor d h'']
  simp only [hour, minute, hs] at *
  by_cases h1 : d < 43200 * 1000000000
  · rw [if_pos h1, if_pos (by omega)]; omega
  rw [if_neg h1, if_neg (show ¬ d < 12 * (60 * (60 * 1000000000)) by omega)]
  by_cases h2 : d < 86400 * 1000000000
  · rw [if_pos h2, if_pos (by omega)]; omega
  rw [if_neg h2, if_neg (show ¬ d < 24 * (60 * (60 * 1000000000)) by omega)]
  by_cases h3 : d < 2592000 * 1000000000
  · rw [if_pos h3, if_pos (by omega)]; omega
  rw [if_neg h3, if_neg (show ¬ d < 30 * 24 * (60 * (60 * 1000000000)) by omega)]
  split
  · omega
  · rw [if_pos (by omega)]; omega

/-- C18: longer periods never get smaller codes. -/
theorem C18_monotone (d d' : Int) (h : 0 ≤ d) (hd : d ≤ d') : durationToRelative d ≤ durationToRelative d' :=
  rel_mono d d' h hd

/-- C18: decoding is strictly monotone, so the codes are distinct periods. -/
theorem C18_decode_monotone (c c' : UInt8) (h : c < c') : relativeToDuration c < relativeToDuration c' := by
  rw [rel_eq, rel_eq]
  have h' := UInt8.lt_iff_toNat_lt.mp h
  have hs : second = 1000000000 := rfl
  simp only [minute, hs]
  by_cases h1 : c'.toNat ≤ 143
  · rw [if_pos h1, if_pos (by omega)]; omega
  rw [if_neg h1]
  by_cases h2 : c'.toNat ≤ 167
  · rw [if_pos h2]; split
    · omega
    · rw [if_pos (by omega)]; omega
  rw [if_neg h2]
  by_cases h3 : c'.toNat ≤ 196
  · rw [if_pos h3]; split
    · omega
    split
    · omega
    · rw [if_pos (by omega)]; omega
  rw [if_neg h3]
  split
  · omega
  split
  · omega
  split <;> omega

/-- C18 (partial, missing: code 0): every code decodes to a period that encodes back to the code. -/
theorem C18_code_roundtrip_partial (c : UInt8) (h : c ≠ 0) : durationToRelative (relativeToDuration c) = c :=
  rel_enc c h

/-- C18, exactly: the decoded period does not exceed the requested one if and only if that is ten minutes or more,
whether it is negative or not. -/
theorem C18_floor_exact (d : Int) : relativeToDuration (durationToRelative d) ≤ d ↔ 10 * minute ≤ d := by
  refine ⟨?_, fun h => (C18_floor_partial d h).1⟩
  have hs : second = 1000000000 := rfl
  intro h
  by_cases h0 : d < 5 * minute
  · -- every period is five minutes or more
    have hp : 5 * minute ≤ relativeToDuration (durationToRelative d) := by
      generalize durationToRelative d = c
      rw [rel_eq]
      simp only [minute, hs]
      split
      · omega
      split
      · omega
      split <;> omega
    omega
  · by_cases h1 : 10 * minute ≤ d
    · exact h1
    · have hc : durationToRelative d = 1 := by
        have ht : d.tdiv (minute * 5) = 1 := by
          simp only [minute, hs] at h0 h1 ⊢
          rw [Int.tdiv_eq_ediv_of_nonneg (by omega)]
          omega
        unfold durationToRelative
        rw [if_pos (by simp only [hour, minute, hs] at h1 ⊢; omega), ht]
        decide
      rw [hc] at h
      have : relativeToDuration 1 = 10 * minute := by decide
      omega

/-- C18, exactly: a code decodes to a period that encodes back to it if and only if it is not 0. -/
theorem C18_code_exact (c : UInt8) : durationToRelative (relativeToDuration c) = c ↔ c ≠ 0 := by
  refine ⟨?_, C18_code_roundtrip_partial c⟩
  rintro h rfl
  rw [C18_counterexample_code] at h
  cases h

example : 10 * minute ≤ 13 * hour ∧ durationToRelative (13 * hour) = 145 ∧
    relativeToDuration 145 = 13 * hour := by decide

/-- C19: representable validity periods round-trip, whatever follows, and are consumed exactly. -/
theorem C19_roundtrip (v : ValidityPeriod) (h : VpOk v) (rest : List UInt8) :
    ∃ p, v.MarshalBinary = .ok p ∧ ValidityPeriod.UnmarshalBinary {} (p ++ rest) v.Format = .ok (v, p.length) := by
  cases h with
  | absent => exact vp_none rest
  | relative c h => exact vp_relative c h rest
  | absolute t h =>
    obtain ⟨hn, hy1, hy2, q, hq, hq1, hq2⟩ := h
    exact vp_absolute t q rest hn hy1 hy2 (by omega) hq1 hq2
  | enhancedNone efi he => exact vp_enh0 efi he rest
  | enhancedRelative efi c he h => exact vp_enh1 efi c he h rest
  | enhancedSeconds efi n he h => exact vp_enh2 efi n he h rest
  | enhancedHHMMSS efi n he h => exact vp_enh3 efi n he (by omega) rest

example : VpOk { Format := VpfEnhanced, EFI := 0x43, Duration := second * 3723 } :=
  .enhancedHHMMSS 0x43 3723 (by decide) (by decide)
example : ({ Format := VpfEnhanced, EFI := 0x43, Duration := second * 3723 } : ValidityPeriod).MarshalBinary =
    .ok [0x43, 0x10, 0x20, 0x30, 0, 0, 0] := by decide +kernel

end Verif.Props
