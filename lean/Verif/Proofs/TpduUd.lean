import Verif.Spec.WellFormed
import Verif.Proofs.UserData
import Verif.Proofs.SevenBit

/-! Round trip of the user data part of a TPDU. -/

namespace Verif.Proofs
open Verif.Model Verif.Model.TPDU Verif.Spec

theorem hdrLen_def (udh : UDH) : hdrLen udh = if udh = [] then 0 else udh.UDHL + 1 := rfl

theorem hdrLen_eq (udh : UDH) : udh.MarshalBinary.length = hdrLen udh := by
  rw [hdrLen_def]
  split
  · rename_i h; rw [h]; rfl
  · exact udh_marshal_length udh ‹_›

theorem udhl_le (t : TPDU) (h : udLen t ≤ 255) : t.UDH ≠ [] → t.UDH.UDHL ≤ 254 := by
  intro hne
  unfold udLen at h
  rw [hdrLen_def, if_neg hne] at h
  split at h <;> omega

theorem fill_eq (h : Nat) : (if h % 7 ≠ 0 then 7 - h % 7 else 0) = (7 - h % 7) % 7 := by
  split <;> omega

theorem decode7Bit_ok (u : Bytes) (hu : Septets u) (h : Nat) :
    decode7Bit (u.length + (8 * h + 6) / 7) h (Gsm7.Pack7Bit u ((7 - h % 7) % 7)) = .ok u := by
  have hfill : (if h > 0 then (if h % 7 ≠ 0 then 7 - h % 7 else 0) else 0) = (7 - h % 7) % 7 := by
    rw [fill_eq]; split <;> omega
  unfold decode7Bit
  simp only [hfill]
  have hsml : (if h > 0 then ((u.length + (8 * h + 6) / 7 : Nat) : Int) - ((h * 8 + (7 - h % 7) % 7) / 7 : Nat)
      else ((u.length + (8 * h + 6) / 7 : Nat) : Int)) = (u.length : Int) := by
    split <;> omega
  rw [hsml, unpack_pack u _ (by omega) hu]
  split
  · rw [if_neg (by simp; omega), if_pos (by simp; omega), if_neg (by simp), idx_append_right u 0]
    simp only [ok_bind]
    rw [if_neg (by decide)]
    have := slice_at [] u [0] 0 (u.length : Int) rfl (by simp)
    simpa using this
  · rw [if_neg (by simp), if_neg (by simp)]

theorem ud_roundtrip (t t0 : TPDU) (h : UdOk t) (hd : t0.DCS = t.DCS) (hf : t0.FirstOctet = t.FirstOctet)
    (h1 : t0.UDH = []) (h2 : t0.UD = []) :
    ∃ e, t.encodeUserData = .ok e ∧ t0.decodeUserData e = .ok { t0 with UDH := t.UDH, UD := t.UD } ∧ 1 ≤ e.length ∧
      (t.UD = [] → t.UDH = [] → e.length = 1) ∧ (t.UD ≠ [] ∨ t.UDH ≠ [] → e.head? ≠ some 0) := by
  obtain ⟨alpha, udhi, septets, even, fits⟩ := h
  have hlen := hdrLen_eq t.UDH
  have hle := udhl_le t fits
  have ha0 : t0.Alphabet = t.Alphabet := by unfold TPDU.Alphabet; rw [hd]
  have hu0 : t0.UDHI = t.UDHI := by unfold TPDU.UDHI; rw [hf]
  generalize hal : t.Alphabet = al at *
  obtain ⟨a, o⟩ := al
  simp only at alpha septets even
  subst alpha
  -- the header part of decoding
  have hdr : ∀ rest : Bytes, (t.UDH ≠ [] ∨ t.UD ≠ []) → ∀ x : UInt8,
      (if t0.UDHI = true then do
            let s ← slice (x :: (t.UDH.MarshalBinary ++ rest)) ((1 : Nat) : Int) (x :: (t.UDH.MarshalBinary ++ rest)).length
            wrapD "udh" 1 (UDH.UnmarshalBinary s)
          else .ok ([], 0) : M (Model.UDH × Nat)) = .ok (t.UDH, hdrLen t.UDH) := by
    intro rest hx x
    rw [hu0]
    by_cases hne : t.UDH = []
    · rw [if_neg fun hu => (udhi.2 hu).elim (fun h => h hne) (hx.resolve_left (fun h => h hne)), hne]; rfl
    · rw [if_pos (udhi.1 hne)]
      have := slice_end [x] (t.UDH.MarshalBinary ++ rest) ((1 : Nat) : Int) (x :: (t.UDH.MarshalBinary ++ rest)).length rfl rfl
      have this' : slice (x :: (t.UDH.MarshalBinary ++ rest)) ((1 : Nat) : Int) (x :: (t.UDH.MarshalBinary ++ rest)).length = .ok (t.UDH.MarshalBinary ++ rest) := this
      rw [this']
      simp only [ok_bind]
      rw [udh_roundtrip t.UDH hne (by have := hle hne; omega) rest]
      simp [hdrLen_def, hne]
  -- tail of the slice
  have tl : ∀ (x : UInt8) (rest : Bytes),
      slice (x :: (t.UDH.MarshalBinary ++ rest)) ((1 + hdrLen t.UDH : Nat) : Int) (x :: (t.UDH.MarshalBinary ++ rest)).length = .ok rest := by
    intro x rest
    have := slice_end (x :: t.UDH.MarshalBinary) rest ((1 + hdrLen t.UDH : Nat) : Int)
      (x :: (t.UDH.MarshalBinary ++ rest)).length (by simp [hlen]; omega) (by simp)
    simpa using this
  have len : ∀ (x : UInt8) (rest : Bytes), (x :: (t.UDH.MarshalBinary ++ rest)).length = 1 + hdrLen t.UDH + rest.length := by
    intro x rest; simp [hlen]; omega
  have udl0 : hdrLen t.UDH = 0 ↔ t.UDH = [] := by unfold hdrLen; split <;> simp_all
  by_cases h7 : a = .a7Bit
  · subst h7
    have hs := septets rfl
    have hfits : t.UD.length + (8 * hdrLen t.UDH + 6) / 7 ≤ 255 := by
      unfold udLen at fits; rw [hal, if_pos rfl] at fits; exact fits
    unfold encodeUserData
    rw [hal]
    simp only [if_true, hlen, fill_eq]
    refine ⟨_, rfl, ?_, by simp, ?_, ?_⟩
    · simp only [List.cons_append]
      unfold decodeUserData
      rw [if_neg (by simp)]
      simp only [idx_zero_cons, ok_bind]
      by_cases hn : t.UD = []
      · have e1 : (byteOf ((hdrLen t.UDH * 8 / 7 : Nat) : Int)).toNat = hdrLen t.UDH * 8 / 7 := by
          rw [toNat_byteOf]; simp [hn] at hfits; omega
        have e2 : Gsm7.Pack7Bit [] ((7 - hdrLen t.UDH % 7) % 7) = [] := rfl
        rw [hn]
        simp only [List.length_nil, Nat.lt_irrefl, if_false, gt_iff_lt, e1, e2]
        by_cases hh : t.UDH = []
        · rw [hh]
          cases t0
          simp only at h1 h2
          subst h1 h2
          rfl
        · have : hdrLen t.UDH ≥ 1 := by have := mt udl0.mp hh; omega
          rw [if_neg (by omega), ha0]
          simp only [if_true]
          rw [if_neg (by rw [len]; simp; omega), if_neg (by rw [len]; simp; omega), hdr [] (.inl hh)]
          simp only [ok_bind]
          rw [if_pos (by rw [len]; simp)]
          simp [h2]
      · have hpos : t.UD.length > 0 := List.length_pos_iff.mpr hn
        have hpl := pack7Bit_length t.UD ((7 - hdrLen t.UDH % 7) % 7) (by omega) hs hn
        have e0 : t.UD.length + (hdrLen t.UDH * 8 + (7 - hdrLen t.UDH % 7) % 7) / 7 = t.UD.length + (8 * hdrLen t.UDH + 6) / 7 := by omega
        have e1 : (byteOf ((t.UD.length + (8 * hdrLen t.UDH + 6) / 7 : Nat) : Int)).toNat = t.UD.length + (8 * hdrLen t.UDH + 6) / 7 := by
          rw [toNat_byteOf]; omega
        simp only [if_pos hpos, e0, e1]
        rw [if_neg (by omega), ha0]
        simp only [if_true]
        rw [if_neg (by rw [len, hpl]; omega), if_neg (by rw [len, hpl]; omega), hdr _ (.inr hn)]
        simp only [ok_bind]
        rw [if_neg (by rw [len, hpl]; omega), tl]
        simp only [ok_bind, decode7Bit_ok t.UD hs, wrapD_ok]
        rfl
    · intro hn hh
      rw [hn, hh]; rfl
    · intro hne
      simp only [List.cons_append, List.head?_cons, ne_eq, Option.some.injEq]
      intro hz
      have hz' := congrArg UInt8.toNat hz
      rw [toNat_byteOf] at hz'
      have z : (0 : UInt8).toNat = 0 := rfl
      rw [z] at hz'
      by_cases hn : t.UD = []
      · have hh : hdrLen t.UDH ≠ 0 := mt udl0.mp (hne.resolve_left (fun h => h hn))
        rw [hn] at hz' hfits
        simp at hz' hfits
        omega
      · have hpos : t.UD.length > 0 := List.length_pos_iff.mpr hn
        have e0 : t.UD.length + (hdrLen t.UDH * 8 + (7 - hdrLen t.UDH % 7) % 7) / 7 = t.UD.length + (8 * hdrLen t.UDH + 6) / 7 := by omega
        rw [if_pos hpos, e0] at hz'
        omega
  · have hfits : t.UD.length + hdrLen t.UDH ≤ 255 := by
      unfold udLen at fits; rw [hal, if_neg h7] at fits; exact fits
    have e1 : (byteOf ((t.UD.length + hdrLen t.UDH : Nat) : Int)).toNat = t.UD.length + hdrLen t.UDH := by
      rw [toNat_byteOf]; omega
    unfold encodeUserData
    rw [hal]
    simp only [if_neg h7, hlen]
    rw [if_neg (by rintro ⟨h, h'⟩; have := even h; omega)]
    refine ⟨_, rfl, ?_, by simp, ?_, ?_⟩
    · simp only [List.cons_append]
      unfold decodeUserData
      rw [if_neg (by simp)]
      simp only [idx_zero_cons, ok_bind, e1]
      by_cases hz : t.UD.length + hdrLen t.UDH = 0
      · have hn : t.UD = [] := List.length_eq_zero_iff.mp (by omega)
        have hh : t.UDH = [] := udl0.mp (by omega)
        rw [if_pos hz, hn, hh]
        cases t0
        simp only at h1 h2
        subst h1 h2
        rfl
      · rw [if_neg hz, ha0]
        simp only [if_neg h7]
        rw [if_neg (by rw [len]; omega), if_neg (by rw [len]; omega), hdr _ (by
          by_cases hn : t.UDH = []
          · exact .inr fun h => hz (by rw [h, udl0.2 hn]; rfl)
          · exact .inl hn)]
        simp only [ok_bind]
        by_cases hn : t.UD = []
        · rw [if_pos (by rw [len, hn]; simp), hn]
          simp [h2]
        · rw [if_neg (by rw [len]; have := List.length_pos_iff.mpr hn; omega), tl]
          simp only [ok_bind]
          rw [if_neg (by rintro ⟨h, h'⟩; have := even h; omega)]
          rfl
    · intro hn hh
      rw [hn, hh]; rfl
    · intro hne
      simp only [List.cons_append, List.head?_cons, ne_eq, Option.some.injEq]
      intro hz
      have hz' := congrArg UInt8.toNat hz
      rw [e1] at hz'
      have z : (0 : UInt8).toNat = 0 := rfl
      rw [z] at hz'
      rcases hne with h | h
      · have := List.length_pos_iff.mpr h; omega
      · have := mt udl0.mp h; omega

end Verif.Proofs
