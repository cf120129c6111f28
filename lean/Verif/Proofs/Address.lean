import Verif.Model.Address
import Verif.Proofs.Semioctet
import Verif.Proofs.SevenBit
import Verif.Proofs.Gsm7

/-! Helper lemmas for addresses. -/

namespace Verif.Proofs
open Verif.Model Verif.Model.Address Verif.Spec

theorem addr_numeric (a : Address) (rest : Bytes) (hton : a.TypeOfNumber ≠ TonAlphanumeric) (hd : Digits a.Addr)
    (hl : a.Addr.length ≤ 255) :
    ∃ p, a.MarshalBinary = .ok p ∧ p.length = 2 + (a.Addr.length + 1) / 2 ∧
      UnmarshalBinary (p ++ rest) = .ok (a, p.length) := by
  obtain ⟨e, he, _⟩ := encodeLoop_ok a.Addr none (by simp) hd
  have he' : Semioctet.Encode a.Addr = .ok e := he
  have hel := encode_length a.Addr e hd he'
  have hm : a.MarshalBinary = .ok (byteOf a.Addr.length :: a.TOA :: e) := by
    unfold MarshalBinary
    rw [if_neg hton, he']
    rfl
  refine ⟨_, hm, by simp [hel]; omega, ?_⟩
  have hb : (byteOf (a.Addr.length : Int)).toNat = a.Addr.length := by
    rw [toNat_byteOf]; omega
  have hton' : ¬ (a.TOA >>> 4) &&& 0x07 = TonAlphanumeric := hton
  unfold UnmarshalBinary
  simp only [List.cons_append]
  rw [if_neg (by simp)]
  simp only [idx_zero_cons, idx_one_cons, ok_bind, hb]
  rw [if_neg (by simp [hel]; omega), if_neg hton']
  have hs : slice (byteOf a.Addr.length :: a.TOA :: (e ++ rest)) ((2 : Nat) : Int) ((2 + (a.Addr.length + 1) / 2 : Nat) : Int) = .ok e :=
    slice_at [byteOf a.Addr.length, a.TOA] e rest _ _ rfl (by simp [hel])
  rw [hs]
  simp only [ok_bind]
  have hdec := dec_enc a.Addr.length [] _ a.Addr rfl [] 0 e hd he (by simp) (.inl rfl)
  simp only [List.append_nil, List.nil_append, Nat.zero_add] at hdec
  have hdec' : Semioctet.Decode a.Addr.length e = .ok ⟨.ok a.Addr, e.length⟩ := hdec
  rw [hdec']
  simp only [ok_bind]
  rw [if_neg (by simp [hel])]
  simp; omega

theorem addr_numeric_error (a : Address) (hton : a.TypeOfNumber ≠ TonAlphanumeric) (hd : ¬ Digits a.Addr) :
    ∃ d ∈ a.Addr, d ∉ digitChars ∧ a.MarshalBinary = fail (.encode "addr" (.semiInvalidDigit d)) := by
  obtain ⟨x, d, y, e1, _, e2, e3⟩ := encodeLoop_error a.Addr none hd
  refine ⟨d, by simp [e1], e2, ?_⟩
  unfold MarshalBinary
  have : Semioctet.Encode a.Addr = fail (.semiInvalidDigit d) := e3
  rw [if_neg hton, this]
  rfl

theorem empty_tables : TablesOk [] [] :=
  ⟨by simp, by simp, by simp, by simp, by simp⟩

theorem septets_of_default (text g : Bytes) (h : (Gsm7.NewEncoder []).WithoutExt.Encode text = .ok g) : Septets g := by
  rw [encoder_encode_eq] at h
  have : (Gsm7.NewEncoder []).WithoutExt = ⟨Charset.NewEncoder 0, []⟩ := rfl
  rw [this] at h
  exact (encoder_loop_septets ⟨Charset.NewEncoder 0, []⟩ (fun r g h => ((locking_ok 0).sect r g h).2) (by simp) _ g h).1

theorem default_roundtrip (text g : Bytes) (h : (Gsm7.NewEncoder []).WithoutExt.Encode text = .ok g)
    (hesc : (0x1b : UInt8) ∉ text) : (Gsm7.NewDecoder []).WithoutExt.Strict.Decode g = .ok text := by
  rw [encoder_encode_eq] at h
  have e1 : (Gsm7.NewEncoder []).WithoutExt = ⟨Charset.NewEncoder 0, []⟩ := rfl
  have e2 : (Gsm7.NewDecoder []).WithoutExt.Strict = ⟨Charset.NewDecoder 0, [], true⟩ := rfl
  rw [e1] at h
  rw [decoder_decode_eq, e2]
  have hf : 0xFFFD ∉ Unicode.decodeRunes text := by
    intro hm
    have := encoder_loop_ok _ _ g h _ hm
    simp only [List.lookup_nil] at this
    rcases this with h | h
    · obtain ⟨c, hc⟩ := Option.isSome_iff_exists.mp h
      exact ((locking_ok 0).scalar _ _ ((locking_ok 0).sect _ _ hc).1).2 rfl
    · simp at h
  have htext := encodeRunes_decodeRunes text hf
  have hiff := encodeRunes_mem_esc (Unicode.decodeRunes text)
  rw [htext] at hiff
  rw [decode_encode_loop ⟨Charset.NewEncoder 0, []⟩ _ (locking_ok 0) empty_tables _ g h (fun h => hesc (hiff.mpr h)), htext]

theorem addr_alpha (a : Address) (rest g : Bytes) (hton : a.TypeOfNumber = TonAlphanumeric)
    (henc : (Gsm7.NewEncoder []).WithoutExt.Encode a.Addr = .ok g) (hesc : (0x1b : UInt8) ∉ a.Addr)
    (hl : g.length ≤ 145) :
    ∃ p, a.MarshalBinary = .ok p ∧ p.length = 2 + (7 * g.length + 7) / 8 ∧
      UnmarshalBinary (p ++ rest) = .ok (a, p.length) := by
  have hs := septets_of_default _ _ henc
  have hm : a.MarshalBinary = .ok (byteOf ((g.length * 7 + 3) / 4 : Nat) :: a.TOA :: Gsm7.Pack7Bit g 0) := by
    unfold MarshalBinary
    rw [if_pos hton, henc]
    rfl
  have hpl : (Gsm7.Pack7Bit g 0).length = (7 * g.length + 7) / 8 := by
    by_cases hg : g = []
    · subst hg; rfl
    · rw [pack7Bit_length g 0 (by omega) hs hg]; omega
  refine ⟨_, hm, by simp [hpl]; omega, ?_⟩
  have hb : (byteOf ((g.length * 7 + 3) / 4 : Nat)).toNat = (g.length * 7 + 3) / 4 := by
    rw [toNat_byteOf]; omega
  have hton' : (a.TOA >>> 4) &&& 0x07 = TonAlphanumeric := hton
  unfold UnmarshalBinary
  simp only [List.cons_append]
  rw [if_neg (by simp)]
  simp only [idx_zero_cons, idx_one_cons, ok_bind, hb]
  rw [if_neg (by simp [hpl]; omega), if_pos hton']
  have hsl : slice (byteOf ((g.length * 7 + 3) / 4 : Nat) :: a.TOA :: (Gsm7.Pack7Bit g 0 ++ rest)) ((2 : Nat) : Int)
      ((2 + ((g.length * 7 + 3) / 4 + 1) / 2 : Nat) : Int) = .ok (Gsm7.Pack7Bit g 0) :=
    slice_at [byteOf ((g.length * 7 + 3) / 4 : Nat), a.TOA] (Gsm7.Pack7Bit g 0) rest _ _ rfl (by simp [hpl]; omega)
  rw [hsl]
  simp only [ok_bind]
  have hu : (if ((Gsm7.Unpack7Bit (Gsm7.Pack7Bit g 0) 0).length * 7 + 3) / 4 > (g.length * 7 + 3) / 4 then
      slice (Gsm7.Unpack7Bit (Gsm7.Pack7Bit g 0) 0) 0 ((Gsm7.Unpack7Bit (Gsm7.Pack7Bit g 0) 0).length - 1 : Int)
      else .ok (Gsm7.Unpack7Bit (Gsm7.Pack7Bit g 0) 0)) = .ok g := by
    rw [unpack_pack g 0 (by omega) hs]
    by_cases hx : g ≠ [] ∧ 8 * (Gsm7.Pack7Bit g 0).length = 0 + 7 * g.length + 7
    · rw [if_pos hx, if_pos (by simp; omega)]
      have := slice_at [] g [0] 0 ((g ++ [0]).length - 1 : Int) rfl (by simp)
      simpa using this
    · rw [if_neg hx, if_neg (by omega)]
  have hK : ∀ K : Bytes → M (Address × Nat), ((if ((Gsm7.Unpack7Bit (Gsm7.Pack7Bit g 0) 0).length * 7 + 3) / 4 > (g.length * 7 + 3) / 4 then
      slice (Gsm7.Unpack7Bit (Gsm7.Pack7Bit g 0) 0) 0 ((Gsm7.Unpack7Bit (Gsm7.Pack7Bit g 0) 0).length - 1 : Int) >>= K
      else K (Gsm7.Unpack7Bit (Gsm7.Pack7Bit g 0) 0))) = K g := by
    intro K
    split at hu
    · rw [if_pos ‹_›, hu]; rfl
    · rw [if_neg ‹_›]; rw [Except.ok.inj hu]
  rw [hK, default_roundtrip _ _ henc hesc]
  simp [hpl]; omega

end Verif.Proofs
