import Verif.Model.ValidityPeriod
import Verif.Proofs.Float
import Verif.Proofs.Time

/-! Helper lemmas for validity periods. -/

namespace Verif.Proofs
open Verif.Model

theorem rel_table : ∀ n : Nat, n < 256 →
    relativeToDuration (UInt8.ofNat n) = minute * (
      if n ≤ 143 then 5 * ((n : Int) + 1)
      else if n ≤ 167 then 30 * ((n : Int) - 119)
      else if n ≤ 196 then 1440 * ((n : Int) - 166)
      else 10080 * ((n : Int) - 192)) := by decide +kernel

theorem rel_eq (c : UInt8) :
    relativeToDuration c = minute * (
      if c.toNat ≤ 143 then 5 * ((c.toNat : Int) + 1)
      else if c.toNat ≤ 167 then 30 * ((c.toNat : Int) - 119)
      else if c.toNat ≤ 196 then 1440 * ((c.toNat : Int) - 166)
      else 10080 * ((c.toNat : Int) - 192)) := by
  have := rel_table c.toNat c.toNat_lt
  rwa [UInt8.ofNat_toNat] at this

theorem byte_add (a : UInt8) (i : Int) (h0 : 0 ≤ i) (h : (a.toNat : Int) + i < 256) :
    ((a + byteOf i).toNat : Int) = a.toNat + i := by
  rw [UInt8.toNat_add, toNat_byteOf]
  omega

/-- Closed form of the encoder for periods that are not negative. -/
theorem durToRel (d : Int) (h : 0 ≤ d) : ((durationToRelative d).toNat : Int) =
    if d < 600 * second then d / (300 * second)
    else if d < 43200 * second then d / (300 * second) - 1
    else if d < 86400 * second then 119 + d / (1800 * second)
    else if d < 2592000 * second then 166 + d / (86400 * second)
    else if d < 38102400 * second then 192 + d / (604800 * second)
    else 255 := by
  unfold durationToRelative
  have hs : second = 1000000000 := rfl
  simp only [hour, minute, hs, Int.tdiv_eq_ediv_of_nonneg h]
  by_cases h1 : d < 60 * (60 * 1000000000) * 12
  · rw [if_pos h1]
    have e : d / (60 * 1000000000 * 5) = d / (300 * 1000000000) := by omega
    have hb : (byteOf (d / (60 * 1000000000 * 5))).toNat = (d / (300 * 1000000000)).toNat := by
      rw [toNat_byteOf]; omega
    by_cases h2 : byteOf (d / (60 * 1000000000 * 5)) > 1
    · rw [if_pos h2]
      have h2' : 1 < (byteOf (d / (60 * 1000000000 * 5))).toNat := UInt8.lt_iff_toNat_lt.mp h2
      have hsub : (byteOf (d / (60 * 1000000000 * 5)) - 1).toNat = (byteOf (d / (60 * 1000000000 * 5))).toNat - 1 :=
        UInt8.toNat_sub_of_le _ _ (by rw [UInt8.le_iff_toNat_le]; show 1 ≤ _; omega)
      rw [hsub, hb]
      rw [hb] at h2'
      rw [if_neg (by omega), if_pos (by omega)]
      omega
    · rw [if_neg h2]
      have h2' : ¬ 1 < (byteOf (d / (60 * 1000000000 * 5))).toNat := fun h => h2 (UInt8.lt_iff_toNat_lt.mpr h)
      rw [hb]
      rw [hb] at h2'
      rw [if_pos (by omega)]
      omega
  · rw [if_neg h1, if_neg (show ¬ d < 600 * 1000000000 by omega), if_neg (show ¬ d < 43200 * 1000000000 by omega)]
    by_cases h2 : d < 60 * (60 * 1000000000) * 24
    · rw [if_pos h2, if_pos (show d < 86400 * 1000000000 by omega), byte_add _ _ (by omega) (by show (119 : Int) + _ < _; omega)]
      show (119 : Int) + _ = _
      omega
    · rw [if_neg h2, if_neg (show ¬ d < 86400 * 1000000000 by omega)]
      by_cases h3 : d < 60 * (60 * 1000000000) * 24 * 30
      · rw [if_pos h3, if_pos (show d < 2592000 * 1000000000 by omega), byte_add _ _ (by omega) (by show (166 : Int) + _ < _; omega)]
        show (166 : Int) + _ = _
        omega
      · rw [if_neg h3, if_neg (show ¬ d < 2592000 * 1000000000 by omega)]
        by_cases h4 : d < 60 * (60 * 1000000000) * 24 * 7 * 63
        · rw [if_pos h4, if_pos (show d < 38102400 * 1000000000 by omega), byte_add _ _ (by omega) (by show (192 : Int) + _ < _; omega)]
          show (192 : Int) + _ = _
          omega
        · rw [if_neg h4, if_neg (show ¬ d < 38102400 * 1000000000 by omega)]
          rfl

/-- Decoding the encoded period, for periods of at least ten minutes. -/
theorem rel_floor (d : Int) (h : 600 * second ≤ d) : relativeToDuration (durationToRelative d) =
    if d < 43200 * second then 300 * second * (d / (300 * second))
    else if d < 86400 * second then 1800 * second * (d / (1800 * second))
    else if d < 2592000 * second then 86400 * second * (d / (86400 * second))
    else if d < 3024000 * second then 2592000 * second
    else if d < 38102400 * second then 604800 * second * (d / (604800 * second))
    else 38102400 * second := by
  have hs : second = 1000000000 := rfl
  have hd := durToRel d (by omega)
  rw [rel_eq]
  simp only [minute, hs] at *
  generalize (durationToRelative d).toNat = c at *
  rw [if_neg (by omega)] at hd
  by_cases h1 : d < 43200 * 1000000000
  · rw [if_pos h1] at hd ⊢; rw [if_pos (by omega)]; omega
  rw [if_neg h1] at hd ⊢
  by_cases h2 : d < 86400 * 1000000000
  · rw [if_pos h2] at hd ⊢
    split
    · omega
    · split <;> omega
  rw [if_neg h2] at hd ⊢
  by_cases h3 : d < 2592000 * 1000000000
  · rw [if_pos h3] at hd ⊢
    rw [if_neg (by omega)]
    split
    · omega
    · split <;> omega
  rw [if_neg h3] at hd ⊢
  by_cases h4 : d < 38102400 * 1000000000
  · rw [if_pos h4] at hd
    by_cases h5 : d < 3024000 * 1000000000
    · rw [if_pos h5, if_neg (by omega), if_neg (by omega)]
      split <;> omega
    · rw [if_neg h5, if_pos h4, if_neg (by omega), if_neg (by omega), if_neg (by omega)]; omega
  rw [if_neg h4] at hd
  rw [if_neg (show ¬ d < 3024000 * 1000000000 by omega), if_neg h4, if_neg (by omega), if_neg (by omega), if_neg (by omega)]; omega

theorem checkZero_ok (a b c : UInt8) (rest : Bytes) :
    ValidityPeriod.checkZero (a :: 0 :: 0 :: 0 :: 0 :: 0 :: 0 :: rest) 1 6 = .ok () ∧
    ValidityPeriod.checkZero (a :: b :: 0 :: 0 :: 0 :: 0 :: 0 :: rest) 2 6 = .ok () ∧
    ∀ x, ValidityPeriod.checkZero (a :: b :: c :: x :: 0 :: 0 :: 0 :: rest) 4 6 = .ok () :=
  ⟨rfl, rfl, fun _ => rfl⟩

end Verif.Proofs

namespace Verif.Proofs
open Verif.Model

theorem rel_enc_table : ∀ n : Nat, n < 256 → n ≠ 0 →
    durationToRelative (relativeToDuration (UInt8.ofNat n)) = UInt8.ofNat n := by decide +kernel

theorem rel_enc (c : UInt8) (h : c ≠ 0) : durationToRelative (relativeToDuration c) = c := by
  have := rel_enc_table c.toNat c.toNat_lt (fun h' => h (UInt8.toNat_inj.mp h'))
  rwa [UInt8.ofNat_toNat] at this

theorem rel_greatest (d : Int) (h : 600 * second ≤ d) (c : UInt8) (hc : relativeToDuration c ≤ d) :
    relativeToDuration c ≤ relativeToDuration (durationToRelative d) := by
  rw [rel_floor d h]
  rw [rel_eq] at hc ⊢
  have hl := c.toNat_lt
  generalize c.toNat = k at *
  have hs : second = 1000000000 := rfl
  simp only [minute, hs] at *
  by_cases k1 : k ≤ 143
  · simp only [if_pos k1] at hc ⊢
    split
    · omega
    split
    · omega
    split
    · omega
    split
    · omega
    split <;> omega
  simp only [if_neg k1] at hc ⊢
  by_cases k2 : k ≤ 167
  · simp only [if_pos k2] at hc ⊢
    split
    · omega
    split
    · omega
    split
    · omega
    split
    · omega
    split <;> omega
  simp only [if_neg k2] at hc ⊢
  by_cases k3 : k ≤ 196
  · simp only [if_pos k3] at hc ⊢
    split
    · omega
    split
    · omega
    split
    · omega
    split
    · omega
    split <;> omega
  simp only [if_neg k3] at hc ⊢
  split
  · omega
  split
  · omega
  split
  · omega
  split
  · omega
  split <;> omega

theorem rel_mono (d d' : Int) (h : 0 ≤ d) (hd : d ≤ d') : durationToRelative d ≤ durationToRelative d' := by
  rw [UInt8.le_iff_toNat_le]
  have e1 := durToRel d h
  have e2 := durToRel d' (by omega)
  have hs : second = 1000000000 := rfl
  simp only [hs] at *
  generalize (durationToRelative d).toNat = a at *
  generalize (durationToRelative d').toNat = b at *
  split at e2
  · rw [if_pos (by omega)] at e1; omega
  split at e2
  · split at e1
    · omega
    · rw [if_pos (by omega)] at e1; omega
  split at e2
  · split at e1
    · omega
    split at e1
    · omega
    · rw [if_pos (by omega)] at e1; omega
  split at e2
  · split at e1
    · omega
    split at e1
    · omega
    split at e1
    · omega
    · rw [if_pos (by omega)] at e1; omega
  split at e2
  · split at e1
    · omega
    split at e1
    · omega
    split at e1
    · omega
    split at e1
    · omega
    · rw [if_pos (by omega)] at e1; omega
  · split at e1
    · omega
    split at e1
    · omega
    split at e1
    · omega
    split at e1
    · omega
    split at e1
    · omega
    · omega

/-- The remainder of the enhanced format: the seven octets come back. -/
theorem efi_masks : ∀ n : Nat, n < 256 → ((UInt8.ofNat n &&& 0x07).toNat = n % 8) := by decide +kernel

theorem vp_relative (c : UInt8) (h : c ≠ 0) (rest : Bytes) :
    let v : ValidityPeriod := { Format := 2, Duration := relativeToDuration c }
    ∃ p, v.MarshalBinary = .ok p ∧ ValidityPeriod.UnmarshalBinary {} (p ++ rest) v.Format = .ok (v, p.length) := by
  refine ⟨[c], ?_, ?_⟩
  · unfold ValidityPeriod.MarshalBinary
    simp only
    rw [if_neg (by decide), if_neg (by decide), if_pos (by decide), rel_enc c h]
  · rfl

theorem vp_absolute (t : GoTime) (q : Int) (rest : Bytes) (hn : t.nsec = 0) (hy1 : 1970 ≤ t.Year) (hy2 : t.Year ≤ 2069)
    (hq : t.off = 900 * q) (hq1 : -79 ≤ q) (hq2 : q ≤ 79) :
    let v : ValidityPeriod := { Format := 3, Time := t }
    ∃ p, v.MarshalBinary = .ok p ∧ ValidityPeriod.UnmarshalBinary {} (p ++ rest) v.Format = .ok (v, p.length) := by
  obtain ⟨p, h1, h2, h3⟩ := timestamp_roundtrip t q rest hn hy1 hy2 hq hq1 hq2
  refine ⟨p, ?_, ?_⟩
  · unfold ValidityPeriod.MarshalBinary
    simp only
    rw [if_pos (by decide), h1]
  · unfold ValidityPeriod.UnmarshalBinary
    simp only
    rw [if_pos (by decide), h3, h2]
    rfl

theorem vp_none (rest : Bytes) :
    ∃ p, ({} : ValidityPeriod).MarshalBinary = .ok p ∧
      ValidityPeriod.UnmarshalBinary {} (p ++ rest) 0 = .ok ({}, p.length) := ⟨[], rfl, rfl⟩

theorem vp_enh0 (efi : UInt8) (he : efi &&& 7 = 0) (rest : Bytes) :
    let v : ValidityPeriod := { Format := 1, EFI := efi }
    ∃ p, v.MarshalBinary = .ok p ∧ ValidityPeriod.UnmarshalBinary {} (p ++ rest) v.Format = .ok (v, p.length) := by
  refine ⟨[efi, 0, 0, 0, 0, 0, 0], ?_, ?_⟩
  · unfold ValidityPeriod.MarshalBinary
    simp only
    rw [if_neg (by decide), if_pos (by decide), he, if_neg (by decide), if_neg (by decide), if_neg (by decide),
      if_neg (by decide)]
  · unfold ValidityPeriod.UnmarshalBinary ValidityPeriod.unmarshalVPEnhanced
    simp only
    rw [if_neg (by decide), if_pos (by decide), if_neg (by simp)]
    simp only [List.cons_append, idx_zero_cons, ok_bind, he]
    rw [if_pos (by decide)]
    simp only [ok_bind, List.nil_append, (checkZero_ok efi 0 0 rest).1]
    rfl

theorem vp_enh1 (efi c : UInt8) (he : efi &&& 7 = 1) (h : c ≠ 0) (rest : Bytes) :
    let v : ValidityPeriod := { Format := 1, EFI := efi, Duration := relativeToDuration c }
    ∃ p, v.MarshalBinary = .ok p ∧ ValidityPeriod.UnmarshalBinary {} (p ++ rest) v.Format = .ok (v, p.length) := by
  refine ⟨[efi, c, 0, 0, 0, 0, 0], ?_, ?_⟩
  · unfold ValidityPeriod.MarshalBinary
    simp only
    rw [if_neg (by decide), if_pos (by decide), he, if_neg (by decide), if_pos (by decide), rel_enc c h]
  · unfold ValidityPeriod.UnmarshalBinary ValidityPeriod.unmarshalVPEnhanced
    simp only
    rw [if_neg (by decide), if_pos (by decide), if_neg (by simp)]
    simp only [List.cons_append, idx_zero_cons, ok_bind, he]
    rw [if_neg (by decide), if_pos (by decide)]
    simp only [idx_one_cons, ok_bind, pure_ok, List.nil_append, (checkZero_ok efi c 0 rest).2.1]
    rfl

theorem vp_enh2 (efi : UInt8) (n : Nat) (he : efi &&& 7 = 2) (h : n ≤ 255) (rest : Bytes) :
    let v : ValidityPeriod := { Format := 1, EFI := efi, Duration := second * n }
    ∃ p, v.MarshalBinary = .ok p ∧ ValidityPeriod.UnmarshalBinary {} (p ++ rest) v.Format = .ok (v, p.length) := by
  have hb : (byteOf (n : Int)).toNat = n := by rw [toNat_byteOf]; omega
  refine ⟨[efi, byteOf n, 0, 0, 0, 0, 0], ?_, ?_⟩
  · unfold ValidityPeriod.MarshalBinary
    simp only
    rw [if_neg (by decide), if_pos (by decide), he, if_neg (by decide), if_neg (by decide), if_pos (by decide),
      Int.mul_tdiv_cancel_left _ (by decide), if_neg (by omega)]
  · unfold ValidityPeriod.UnmarshalBinary ValidityPeriod.unmarshalVPEnhanced
    simp only
    rw [if_neg (by decide), if_pos (by decide), if_neg (by simp)]
    simp only [List.cons_append, idx_zero_cons, ok_bind, he]
    rw [if_neg (by decide), if_neg (by decide), if_pos (by decide)]
    simp only [idx_one_cons, ok_bind, pure_ok, List.nil_append, (checkZero_ok efi (byteOf n) 0 rest).2.1, hb]
    rfl

theorem vp_enh3 (efi : UInt8) (n : Nat) (he : efi &&& 7 = 3) (h : n < 360000) (rest : Bytes) :
    let v : ValidityPeriod := { Format := 1, EFI := efi, Duration := second * n }
    ∃ p, v.MarshalBinary = .ok p ∧ ValidityPeriod.UnmarshalBinary {} (p ++ rest) v.Format = .ok (v, p.length) := by
  have hs : second = 1000000000 := rfl
  have hn : 0 ≤ second * (n : Int) := by rw [hs]; omega
  obtain ⟨w1, w2, w3⟩ := Float.whole_small (second * (n : Int)) (by rw [hs]; omega)
  have a1 : (Float.whole (second * (n : Int)) hour).tmod 100 = (n : Int) / 3600 := by
    rw [w1, Int.tdiv_eq_ediv_of_nonneg hn, Int.tmod_eq_emod_of_nonneg (by simp only [hour, minute, hs]; omega)]
    simp only [hour, minute, hs]; omega
  have a2 : (Float.whole (second * (n : Int)) minute).tmod 60 = (n : Int) / 60 % 60 := by
    rw [w2, Int.tdiv_eq_ediv_of_nonneg hn, Int.tmod_eq_emod_of_nonneg (by simp only [minute, hs]; omega)]
    simp only [minute, hs]; omega
  have a3 : (Float.whole (second * (n : Int)) second).tmod 60 = (n : Int) % 60 := by
    rw [w3, Int.tdiv_eq_ediv_of_nonneg hn, Int.tmod_eq_emod_of_nonneg (by simp only [hs]; omega)]
    simp only [hs]; omega
  obtain ⟨b1, e1, d1⟩ := bcd_roundtrip ((n : Int) / 3600) (by omega) (by omega)
  obtain ⟨b2, e2, d2⟩ := bcd_roundtrip ((n : Int) / 60 % 60) (by omega) (by omega)
  obtain ⟨b3, e3, d3⟩ := bcd_roundtrip ((n : Int) % 60) (by omega) (by omega)
  refine ⟨[efi, b1, b2, b3, 0, 0, 0], ?_, ?_⟩
  · unfold ValidityPeriod.MarshalBinary
    simp only
    rw [if_neg (by decide), if_pos (by decide), he, if_neg (by decide), if_neg (by decide), if_neg (by decide),
      if_pos (by decide), a1, a2, a3, e1, e2, e3]
    rfl
  · unfold ValidityPeriod.UnmarshalBinary ValidityPeriod.unmarshalVPEnhanced
    simp only
    rw [if_neg (by decide), if_pos (by decide), if_neg (by simp)]
    simp only [List.cons_append, idx_zero_cons, ok_bind, he]
    rw [if_neg (by decide), if_neg (by decide), if_neg (by decide), if_pos (by decide)]
    simp only [show idx (efi :: b1 :: b2 :: b3 :: 0 :: 0 :: 0 :: ([] ++ rest)) 1 = .ok b1 from rfl,
      show idx (efi :: b1 :: b2 :: b3 :: 0 :: 0 :: 0 :: ([] ++ rest)) 2 = .ok b2 from rfl,
      show idx (efi :: b1 :: b2 :: b3 :: 0 :: 0 :: 0 :: ([] ++ rest)) 3 = .ok b3 from rfl,
      d1, d2, d3, wrapD_ok, ok_bind, pure_ok, (checkZero_ok efi b1 b2 ([] ++ rest)).2.2]
    have e : (n : Int) / 3600 * hour + (n : Int) / 60 % 60 * minute + (n : Int) % 60 * second = second * n := by
      simp only [hour, minute, hs]; omega
    rw [e]
    rfl

end Verif.Proofs
