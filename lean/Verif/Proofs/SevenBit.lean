import Verif.Model.SevenBit
import Verif.Proofs.Basic
import Verif.Spec.Bits

/-! Helper lemmas for 7-bit packing. -/

namespace Verif.Proofs
open Verif.Model Verif.Model.Gsm7 Verif.Spec

@[simp] theorem bits_length (n x : Nat) : (bits n x).length = n := by simp [bits]

@[simp] theorem bits_zero_left (x : Nat) : bits 0 x = [] := rfl

theorem bits_zero (n : Nat) : bits n 0 = List.replicate n false := by
  apply List.ext_getElem <;> simp [bits]

theorem bits_add (a b x : Nat) : bits (a + b) x = bits a x ++ bits b (x >>> a) := by
  simp only [bits, List.range_add, List.map_append, List.map_map]
  congr 1
  apply List.map_congr_left
  intro i _
  simp [Nat.testBit_shiftRight]

theorem bits_congr {n x y : Nat} (h : ∀ i < n, x.testBit i = y.testBit i) : bits n x = bits n y := by
  apply List.map_congr_left
  intro i hi
  exact h i (List.mem_range.mp hi)

theorem bits_of_lt {m x : Nat} (k : Nat) (h : x < 2 ^ m) :
    bits (m + k) x = bits m x ++ List.replicate k false := by
  rw [bits_add, ← bits_zero]
  congr 1
  rw [Nat.shiftRight_eq_div_pow, Nat.div_eq_of_lt h]

/-- Low bits from `r`, then the bits of `s`. -/
theorem bits_or_shl {r s k n : Nat} (hr : r < 2 ^ k) :
    bits (k + n) (r ||| s <<< k) = bits k r ++ bits n s := by
  rw [bits_add]
  congr 1
  · apply bits_congr
    intro i hi
    simp [Nat.testBit_or, Nat.testBit_shiftLeft]
    intro h; omega
  · apply bits_congr
    intro i hi
    simp only [Nat.testBit_shiftRight, Nat.testBit_or, Nat.testBit_shiftLeft]
    have : r.testBit (k + i) = false :=
      Nat.testBit_lt_two_pow (Nat.lt_of_lt_of_le hr (Nat.pow_le_pow_right (by decide) (by omega)))
    simp [this]

theorem bits_mod_two_pow (n x m : Nat) (h : n ≤ m) : bits n (x % 2 ^ m) = bits n x := by
  apply bits_congr
  intro i hi
  rw [Nat.testBit_mod_two_pow]
  simp; omega

theorem bits_inj {n x y : Nat} (hx : x < 2 ^ n) (hy : y < 2 ^ n) (h : bits n x = bits n y) : x = y := by
  apply Nat.eq_of_testBit_eq
  intro i
  by_cases hi : i < n
  · have := congrArg (fun l => l[i]?) h
    simpa [bits, hi] using this
  · have hi : n ≤ i := by omega
    rw [Nat.testBit_lt_two_pow (Nat.lt_of_lt_of_le hx (Nat.pow_le_pow_right (by decide) hi)),
      Nat.testBit_lt_two_pow (Nat.lt_of_lt_of_le hy (Nat.pow_le_pow_right (by decide) hi))]

theorem toNat_shl8 (x : UInt8) (n : Nat) : (shl8 x n).toNat = (x.toNat <<< n) % 2 ^ 8 := by
  simp [shl8]

theorem toNat_shr8 (x : UInt8) (n : Nat) : (shr8 x n).toNat = x.toNat >>> n := by
  have : x.toNat >>> n < 256 := by
    have := x.toNat_lt
    rw [Nat.shiftRight_eq_div_pow]
    exact Nat.lt_of_le_of_lt (Nat.div_le_self _ _) this
  simp only [shr8, UInt8.toNat_ofNat']
  exact Nat.mod_eq_of_lt this

/-- The octet emitted by the packing loop. -/
theorem pack_octet (r s : UInt8) (rbits : Nat) (h : rbits ≤ 8) (hr : r.toNat < 2 ^ rbits) :
    bits 8 (((r ||| shl8 s rbits) &&& 0xff).toNat) = bits rbits r.toNat ++ bits (8 - rbits) s.toNat := by
  have e : ((r ||| shl8 s rbits) &&& 0xff).toNat = (r.toNat ||| s.toNat <<< rbits) % 2 ^ 8 := by
    simp only [UInt8.toNat_and, UInt8.toNat_or, toNat_shl8]
    have h255 : (0xff : UInt8).toNat = 2 ^ 8 - 1 := rfl
    rw [h255, Nat.and_two_pow_sub_one_eq_mod, Nat.or_mod_two_pow, Nat.or_mod_two_pow, Nat.mod_mod]
  rw [e, bits_mod_two_pow _ _ _ (Nat.le_refl _)]
  have : 8 = rbits + (8 - rbits) := by omega
  conv => lhs; rw [this]
  exact bits_or_shl hr

theorem packLoop_bits (u : Bytes) : ∀ (r : UInt8) (rbits : Nat), rbits ≤ 7 → r.toNat < 2 ^ rbits →
    Septets u → ∃ k < 8,
      octetBits (packLoop u r rbits) = bits rbits r.toNat ++ septetBits u ++ List.replicate k false := by
  induction u with
  | nil =>
    intro r rbits h hr _
    unfold packLoop
    by_cases h0 : rbits = 0
    · exact ⟨0, by omega, by simp [h0, octetBits, septetBits]⟩
    · refine ⟨8 - rbits, by omega, ?_⟩
      simp only [h0, ne_eq, not_false_eq_true, if_true, octetBits, septetBits, List.flatMap_cons,
        List.flatMap_nil, List.append_nil]
      have := bits_of_lt (8 - rbits) hr
      rwa [show rbits + (8 - rbits) = 8 by omega] at this
  | cons s u ih =>
    intro r rbits h hr hs
    have hs7 : s.toNat < 128 := hs s (by simp)
    have hu : Septets u := fun x hx => hs x (by simp [hx])
    unfold packLoop
    by_cases h0 : rbits = 0
    · subst h0
      obtain ⟨k, hk, e⟩ := ih s 7 (by omega) (by simpa using hs7) hu
      refine ⟨k, hk, ?_⟩
      simp [e, septetBits]
    · have hlt : (shr8 s (8 - rbits)).toNat < 2 ^ (rbits - 1) := by
        rw [toNat_shr8, Nat.shiftRight_eq_div_pow]
        apply Nat.div_lt_of_lt_mul
        rw [← Nat.pow_add]
        rw [show 8 - rbits + (rbits - 1) = 7 by omega]
        simpa using hs7
      obtain ⟨k, hk, e⟩ := ih (shr8 s (8 - rbits)) (rbits - 1) (by omega) hlt hu
      refine ⟨k, hk, ?_⟩
      simp only [h0, if_false]
      have e7 : bits 7 s.toNat = bits (8 - rbits) s.toNat ++ bits (rbits - 1) (s.toNat >>> (8 - rbits)) := by
        rw [← bits_add]; congr 1; omega
      have e1 := pack_octet r s rbits (by omega) hr
      unfold octetBits at e ⊢
      unfold septetBits at e ⊢
      rw [List.flatMap_cons, e1, e, toNat_shr8, List.flatMap_cons, e7]
      simp only [List.append_assoc]

/-- Septet emitted by the unpacking loop. -/
theorem unpack_septet (r o : UInt8) (rbits : Nat) (h : rbits ≤ 7) (hr : r.toNat < 2 ^ rbits) :
    bits 7 (((r ||| shl8 o rbits) &&& 0x7f).toNat) = bits rbits r.toNat ++ bits (7 - rbits) o.toNat
    ∧ ((r ||| shl8 o rbits) &&& 0x7f).toNat < 128 := by
  have e : ((r ||| shl8 o rbits) &&& 0x7f).toNat = (r.toNat ||| o.toNat <<< rbits) % 2 ^ 7 := by
    simp only [UInt8.toNat_and, UInt8.toNat_or, toNat_shl8]
    have h127 : (0x7f : UInt8).toNat = 2 ^ 7 - 1 := rfl
    rw [h127, Nat.and_two_pow_sub_one_eq_mod, Nat.or_mod_two_pow, Nat.or_mod_two_pow]
    rw [Nat.mod_mod_of_dvd _ (by decide : (2 : Nat) ^ 7 ∣ 2 ^ 8)]
  constructor
  · rw [e, bits_mod_two_pow _ _ _ (Nat.le_refl _)]
    have : 7 = rbits + (7 - rbits) := by omega
    conv => lhs; rw [this]
    exact bits_or_shl hr
  · rw [e]; exact Nat.mod_lt _ (by decide)

theorem unpackLoop_bits (p : Bytes) : ∀ (r : UInt8) (rbits : Nat), rbits ≤ 6 → r.toNat < 2 ^ rbits →
    Septets (unpackLoop p r rbits) ∧ ∃ rest, rest.length < 7 ∧
      septetBits (unpackLoop p r rbits) ++ rest = bits rbits r.toNat ++ octetBits p := by
  induction p with
  | nil =>
    intro r rbits h _
    refine ⟨by simp [unpackLoop, Septets], bits rbits r.toNat, by simp; omega, ?_⟩
    simp [unpackLoop, septetBits, octetBits]
  | cons o p ih =>
    intro r rbits h hr
    obtain ⟨e1, hlt⟩ := unpack_septet r o rbits (by omega) hr
    unfold unpackLoop
    by_cases h6 : rbits = 6
    · simp only [h6, if_true]
      subst h6
      obtain ⟨hs, rest, hrest, e⟩ := ih 0 0 (by omega) (by simp)
      have ho : (o >>> 1).toNat < 128 := by
        have := o.toNat_lt; simp [UInt8.toNat_shiftRight, Nat.shiftRight_eq_div_pow]; omega
      refine ⟨?_, rest, hrest, ?_⟩
      · intro x hx
        simp only [List.mem_cons] at hx
        rcases hx with rfl | rfl | hx
        · exact hlt
        · exact ho
        · exact hs x hx
      · simp only [septetBits, octetBits, List.flatMap_cons, List.append_assoc] at e ⊢
        rw [e, e1]
        have e8 : bits 8 o.toNat = bits 1 o.toNat ++ bits 7 (o.toNat >>> 1) := by rw [← bits_add]
        rw [e8]
        simp [UInt8.toNat_shiftRight]
    · simp only [h6, if_false]
      have hsub : 8 - (rbits + 1) = 7 - rbits := by omega
      have hlt' : (shr8 o (8 - (rbits + 1))).toNat < 2 ^ (rbits + 1) := by
        rw [toNat_shr8, Nat.shiftRight_eq_div_pow]
        apply Nat.div_lt_of_lt_mul
        rw [← Nat.pow_add, show 8 - (rbits + 1) + (rbits + 1) = 8 by omega]
        exact o.toNat_lt
      obtain ⟨hs, rest, hrest, e⟩ := ih (shr8 o (8 - (rbits + 1))) (rbits + 1) (by omega) hlt'
      refine ⟨?_, rest, hrest, ?_⟩
      · intro x hx
        simp only [List.mem_cons] at hx
        rcases hx with rfl | hx
        · exact hlt
        · exact hs x hx
      · simp only [septetBits, octetBits, List.flatMap_cons, List.append_assoc] at e ⊢
        rw [e, e1]
        have e8 : bits 8 o.toNat = bits (7 - rbits) o.toNat ++ bits (rbits + 1) (o.toNat >>> (7 - rbits)) := by
          rw [← bits_add]; congr 1; omega
        rw [e8, toNat_shr8, hsub]
        simp only [List.append_assoc]

theorem septetBits_length (u : Bytes) : (septetBits u).length = 7 * u.length := by
  induction u with
  | nil => rfl
  | cons s u ih => simp only [septetBits, List.flatMap_cons, List.length_append, bits_length,
      List.length_cons] at ih ⊢; omega

theorem octetBits_length (u : Bytes) : (octetBits u).length = 8 * u.length := by
  induction u with
  | nil => rfl
  | cons s u ih => simp only [octetBits, List.flatMap_cons, List.length_append, bits_length,
      List.length_cons] at ih ⊢; omega

/-- Septet strings are determined by their bits, up to fewer than 7 further bits. -/
theorem septets_unique : ∀ (u v : Bytes) (r s : List Bool), Septets u → Septets v → r.length < 7 →
    s.length < 7 → septetBits u ++ r = septetBits v ++ s → u = v ∧ r = s := by
  intro u
  induction u with
  | nil =>
    intro v r s _ _ hr hs e
    cases v with
    | nil => simpa [septetBits] using e
    | cons y v =>
      have := congrArg List.length e
      simp [septetBits] at this
      omega
  | cons x u ih =>
    intro v r s hu hv hr hs e
    cases v with
    | nil =>
      have := congrArg List.length e
      simp [septetBits] at this
      omega
    | cons y v =>
      simp only [septetBits, List.flatMap_cons, List.append_assoc] at e
      obtain ⟨e1, e2⟩ := List.append_inj e (by simp)
      have hxy : x = y := UInt8.toNat_inj.mp (bits_inj (n := 7) (hu x (by simp)) (hv y (by simp)) e1)
      obtain ⟨e3, e4⟩ := ih v r s (fun a ha => hu a (by simp [ha])) (fun a ha => hv a (by simp [ha])) hr hs e2
      exact ⟨by rw [hxy, e3], e4⟩

theorem unpack7Bit_bits (p : Bytes) (fill : Nat) (h : fill ≤ 7) :
    Septets (Unpack7Bit p fill) ∧ ∃ rest, rest.length < 7 ∧
      septetBits (Unpack7Bit p fill) ++ rest = (octetBits p).drop fill := by
  unfold Unpack7Bit
  cases p with
  | nil => exact ⟨by simp [Septets], [], by simp, by simp [septetBits, octetBits]⟩
  | cons o p =>
    simp only [List.length_cons, Nat.add_eq_zero_iff, Nat.one_ne_zero, and_false, if_false]
    by_cases hf : fill = 0
    · subst hf
      obtain ⟨hs, rest, hr, e⟩ := unpackLoop_bits (o :: p) 0 0 (by omega) (by simp)
      exact ⟨by simpa using hs, rest, hr, by simpa using e⟩
    · have hf0 : fill > 0 := by omega
      simp only [hf, ne_eq, not_false_eq_true, if_true, hf0]
      obtain ⟨hs, rest, hr, e⟩ := unpackLoop_bits (o :: p) 0 (7 - fill) (by omega)
        (by simp [Nat.pow_pos])
      have hne : unpackLoop (o :: p) 0 (7 - fill) ≠ [] := by
        unfold unpackLoop
        by_cases h6 : 7 - fill = 6 <;> simp [h6]
      match hL : unpackLoop (o :: p) 0 (7 - fill) with
      | [] => exact absurd hL hne
      | x :: xs =>
        rw [hL] at hs e
        refine ⟨fun a ha => hs a (by simp at ha; simp [ha]), rest, hr, ?_⟩
        have := congrArg (List.drop 7) e
        simp only [septetBits, List.flatMap_cons, List.append_assoc] at this
        rw [List.drop_left' (by simp)] at this
        simp only [List.drop_succ_cons, List.drop_zero, septetBits]
        rw [this, List.drop_append, List.drop_eq_nil_of_le (by simp)]
        simp only [bits_length, List.nil_append]
        congr 1
        omega

theorem pack7Bit_bits (u : Bytes) (fill : Nat) (h : fill ≤ 7) (hs : Septets u) (hne : u ≠ []) :
    ∃ k < 8, octetBits (Pack7Bit u fill) =
      List.replicate fill false ++ septetBits u ++ List.replicate k false := by
  unfold Pack7Bit
  have : u.length ≠ 0 := by simpa using hne
  simp only [this, if_false]
  obtain ⟨k, hk, e⟩ := packLoop_bits u 0 fill h (by simp [Nat.pow_pos]) hs
  exact ⟨k, hk, by simpa [bits_zero] using e⟩

end Verif.Proofs

namespace Verif.Proofs
open Verif.Model Verif.Model.Gsm7 Verif.Spec

theorem pack7Bit_length (u : Bytes) (fill : Nat) (h : fill ≤ 7) (hs : Septets u) (hne : u ≠ []) :
    (Pack7Bit u fill).length = (fill + 7 * u.length + 7) / 8 := by
  obtain ⟨k, hk, e⟩ := pack7Bit_bits u fill h hs hne
  have := congrArg List.length e
  simp only [octetBits_length, List.length_append, List.length_replicate, septetBits_length] at this
  omega

theorem unpack_pack (u : Bytes) (fill : Nat) (h : fill ≤ 7) (hs : Septets u) :
    Unpack7Bit (Pack7Bit u fill) fill =
      if u ≠ [] ∧ 8 * (Pack7Bit u fill).length = fill + 7 * u.length + 7 then u ++ [0] else u := by
  by_cases hne : u = []
  · subst hne; simp [Pack7Bit, Unpack7Bit]
  · obtain ⟨k, hk, e⟩ := pack7Bit_bits u fill h hs hne
    obtain ⟨hs', rest, hr, e'⟩ := unpack7Bit_bits (Pack7Bit u fill) fill h
    have hlen := congrArg List.length e
    simp only [octetBits_length, List.length_append, List.length_replicate, septetBits_length] at hlen
    rw [e, List.append_assoc, List.drop_left' (by simp)] at e'
    by_cases hk7 : k = 7
    · subst hk7
      rw [if_pos ⟨hne, by omega⟩]
      have hz : septetBits u ++ List.replicate 7 false = septetBits (u ++ [0]) ++ [] := by
        simp [septetBits, bits_zero]
      rw [hz] at e'
      refine (septets_unique _ _ _ _ hs' ?_ hr (by simp) e').1
      intro x hx
      simp only [List.mem_append, List.mem_singleton] at hx
      rcases hx with hx | rfl
      · exact hs x hx
      · decide
    · rw [if_neg (by omega)]
      exact (septets_unique _ _ _ _ hs' hs hr (by simp; omega) e').1

theorem octetBits_append (a b : Bytes) : octetBits (a ++ b) = octetBits a ++ octetBits b := by
  simp [octetBits]

theorem septetBits_append (a b : Bytes) : septetBits (a ++ b) = septetBits a ++ septetBits b := by
  simp [septetBits]

theorem unpack_of_bits (p v : Bytes) (rest : List Bool) (hv : Septets v) (hr : rest.length < 7)
    (e : octetBits p = septetBits v ++ rest) : Unpack7Bit p 0 = v := by
  obtain ⟨hs', rest', hr', e'⟩ := unpack7Bit_bits p 0 (by omega)
  rw [List.drop_zero, e] at e'
  exact (septets_unique _ _ _ _ hs' hv hr' hr e').1

theorem bits_cons (n x : Nat) : bits (n + 1) x = x.testBit 0 :: bits n (x >>> 1) := by
  rw [Nat.add_comm, bits_add]; rfl

theorem septets_append {u v : Bytes} (hu : Septets u) (hv : Septets v) : Septets (u ++ v) := by
  intro x hx
  rcases List.mem_append.mp hx with h | h
  · exact hu x h
  · exact hv x h

theorem octets_low1 : ∀ (n : Nat), n < 256 → bits 7 (n >>> 1) = List.replicate 7 false →
    UInt8.ofNat n &&& ~~~ 1 = 0 ∧ (UInt8.ofNat n ||| (cr <<< 1)) >>> 1 = cr ∧
    bits 8 (UInt8.ofNat n ||| (cr <<< 1)).toNat = bits 1 n ++ bits 7 13 := by
  decide +kernel

theorem ussd_case_7 (u : Bytes) (hs : Septets u) (x : UInt8) (a : Bytes) (hu : u = a ++ [x])
    (h7 : u.length % 8 = 7) (hx : x ≠ 0) :
    ∃ p, Pack7BitUSSD u 0 = .ok p ∧ Unpack7BitUSSD p 0 = .ok u := by
  have hne : u ≠ [] := by simp [hu]
  obtain ⟨k, hk, e⟩ := pack7Bit_bits u 0 (by omega) hs hne
  have hlen := pack7Bit_length u 0 (by omega) hs hne
  have hbl := congrArg List.length e
  simp only [octetBits_length, List.length_append, List.length_replicate, septetBits_length] at hbl
  have hk7 : k = 7 := by omega
  subst hk7
  obtain ⟨b', o, hb⟩ := exists_concat (Pack7Bit u 0) (by
    intro h; rw [h] at hlen; simp at hlen; omega)
  have hb'len : b'.length = (7 * u.length + 7) / 8 - 1 := by
    have := congrArg List.length hb; simp at this; omega
  -- bits of the last octet
  rw [hb, octetBits_append] at e
  have hsplit : ∃ X b0, X.length = 8 * b'.length ∧ septetBits u = X ++ [b0] := by
    have hl : (septetBits u).length = 8 * b'.length + 1 := by rw [septetBits_length]; omega
    obtain ⟨X, b0, hX⟩ := exists_concat (septetBits u) (by intro h; rw [h] at hl; simp at hl)
    refine ⟨X, b0, ?_, hX⟩
    rw [hX] at hl; simp at hl; omega
  obtain ⟨X, b0, hXl, hX⟩ := hsplit
  rw [hX] at e
  simp only [List.replicate_zero, List.nil_append, List.append_assoc] at e
  obtain ⟨e1, e2⟩ := List.append_inj e (by rw [octetBits_length, hXl])
  have e3 : bits 8 o.toNat = b0 :: List.replicate 7 false := by simpa [octetBits] using e2
  rw [bits_cons] at e3
  have hb0 : o.toNat.testBit 0 = b0 := by simpa using (List.cons.inj e3).1
  have hz := (List.cons.inj e3).2
  obtain ⟨hand, hshr, hbits⟩ := octets_low1 o.toNat o.toNat_lt hz
  rw [UInt8.ofNat_toNat] at hand hshr hbits
  have hul : idx u (u.length - 1 : Int) = .ok x := by
    rw [hu]; simp only [List.length_append, List.length_singleton]
    have : ((a.length + 1 : Nat) : Int) - 1 = (a.length : Nat) := by omega
    rw [this]; exact idx_append_right a x
  have hpack : Pack7BitUSSD u 0 = .ok (b' ++ [o ||| (cr <<< 1)]) := by
    unfold Pack7BitUSSD
    rw [hb]
    simp only [List.length_append, List.length_singleton, Nat.add_eq_zero_iff, Nat.one_ne_zero, and_false,
      if_false, Nat.add_sub_cancel]
    simp only [bind, Except.bind, pure, Except.pure, idx_append_right, hul]
    simp [hand, hx]
  refine ⟨_, hpack, ?_⟩
  have hunp : Unpack7Bit (b' ++ [o ||| (cr <<< 1)]) 0 = u ++ [cr] := by
    apply unpack_of_bits _ _ [] (septets_append hs (by intro y hy; simp at hy; subst hy; decide)) (by simp)
    rw [octetBits_append, e1, septetBits_append, hX]
    simp only [octetBits, List.flatMap_cons, List.flatMap_nil, List.append_nil, hbits]
    simp [septetBits, bits, hb0, cr]
  unfold Unpack7BitUSSD
  rw [hunp]
  have hl2 : b'.length ≥ 1 := by omega
  simp only [List.length_append, List.length_singleton]
  have hi1 : idx (b' ++ [o ||| (cr <<< 1)]) (((b'.length + 1 : Nat) : Int) - 1) = .ok (o ||| (cr <<< 1)) := by
    have : ((b'.length + 1 : Nat) : Int) - 1 = (b'.length : Nat) := by omega
    rw [this]; exact idx_append_right _ _
  have hi2 : ∃ y, idx (b' ++ [o ||| (cr <<< 1)]) (((b'.length + 1 : Nat) : Int) - 2) = .ok y := by
    have h2 : ((b'.length + 1 : Nat) : Int) - 2 = (b'.length - 1 : Nat) := by omega
    rw [h2]
    refine ⟨(b' ++ [o ||| (cr <<< 1)])[b'.length - 1]'(by simp; omega), ?_⟩
    simp only [idx, Int.toNat_natCast]
    rw [if_pos (by omega), List.getElem?_eq_getElem (by simp; omega)]
  obtain ⟨y, hi2⟩ := hi2
  rw [if_pos (by omega)]
  simp only [bind, Except.bind, hi1, hi2, hshr, true_or, if_true]
  simp [slice]
  intro h; omega

theorem last_septet_octet : ∀ (n s : Nat), n < 256 → s < 128 → bits 7 (n >>> 1) = bits 7 s →
    UInt8.ofNat n >>> 1 = UInt8.ofNat s := by
  intro n s hn hs h
  have h1 := bits_inj (n := 7) (x := n >>> 1) (y := s) (by rw [Nat.shiftRight_eq_div_pow]; omega) hs h
  apply UInt8.toNat_inj.mp
  simp [UInt8.toNat_shiftRight, h1.symm]
  rw [Nat.mod_eq_of_lt hn, Nat.mod_eq_of_lt]
  rw [Nat.shiftRight_eq_div_pow]; omega

/-- For a multiple of 8 septets the last octet ends with the last septet. -/
theorem pack_8n (u : Bytes) (hs : Septets u) (x : UInt8) (a : Bytes) (hu : u = a ++ [x])
    (h8 : u.length % 8 = 0) :
    ∃ (b : Bytes) (o : UInt8), Pack7Bit u 0 = b ++ [o] ∧ o >>> 1 = x ∧ octetBits (b ++ [o]) = septetBits u ∧ b.length ≥ 1 := by
  have hne : u ≠ [] := by simp [hu]
  have hpos : u.length ≥ 1 := by simp [hu]
  obtain ⟨k, hk, e⟩ := pack7Bit_bits u 0 (by omega) hs hne
  have hlen := pack7Bit_length u 0 (by omega) hs hne
  have hbl := congrArg List.length e
  simp only [octetBits_length, List.length_append, List.length_replicate, septetBits_length] at hbl
  have hk0 : k = 0 := by omega
  subst hk0
  obtain ⟨b', o, hb⟩ := exists_concat (Pack7Bit u 0) (by
    intro h; rw [h] at hlen; simp at hlen; omega)
  have hb'len : b'.length = (7 * u.length + 7) / 8 - 1 := by
    have := congrArg List.length hb; simp at this; omega
  simp only [List.replicate_zero, List.nil_append, List.append_nil] at e
  rw [hb] at e
  refine ⟨b', o, hb, ?_, e, by omega⟩
  have hxs : x.toNat < 128 := hs x (by simp [hu])
  have e' := e
  rw [hu, septetBits_append, octetBits_append] at e'
  have hlast := congrArg (fun l => (l.reverse.take 7).reverse) e'
  have l1 : septetBits [x] = bits 7 x.toNat := by simp [septetBits]
  have l2 : octetBits [o] = bits 1 o.toNat ++ bits 7 (o.toNat >>> 1) := by
    simp only [octetBits, List.flatMap_cons, List.flatMap_nil, List.append_nil]
    rw [← bits_add]
  rw [l1, l2] at hlast
  simp only [List.reverse_append, List.append_assoc] at hlast
  rw [List.take_append_of_le_length (by simp), List.take_append_of_le_length (by simp)] at hlast
  rw [List.take_of_length_le (by simp), List.take_of_length_le (by simp)] at hlast
  simp only [List.reverse_reverse] at hlast
  have := last_septet_octet o.toNat x.toNat o.toNat_lt hxs hlast
  simpa using this

theorem octet_facts (o : UInt8) : (o &&& ~~~ 1 = 0 → o >>> 1 = 0) ∧ (o = cr → o >>> 1 = 6) := by
  revert o; apply forall_u8; decide +kernel

theorem ussd_case_8n (u : Bytes) (hs : Septets u) (x : UInt8) (a : Bytes) (hu : u = a ++ [x])
    (h8 : u.length % 8 = 0) (hx : x ≠ 6) :
    ∃ p, Pack7BitUSSD u 0 = .ok p ∧ Unpack7BitUSSD p 0 = .ok u := by
  obtain ⟨b, o, hb, ho, hbits, hbl⟩ := pack_8n u hs x a hu h8
  have hul : idx u (u.length - 1 : Int) = .ok x := by rw [hu]; exact idx_len_sub_one a x
  by_cases hcr : x = cr
  · have hpack : Pack7BitUSSD u 0 = .ok (b ++ [o] ++ [cr]) := by
      unfold Pack7BitUSSD
      rw [hb]
      simp only [List.length_append, List.length_singleton, Nat.add_eq_zero_iff, Nat.one_ne_zero, and_false,
        if_false, Nat.add_sub_cancel]
      simp only [bind, Except.bind, pure, Except.pure, idx_append_right, hul]
      have : ¬ (o &&& ~~~ 1 = 0) := fun h => by
        have := (octet_facts o).1 h; rw [ho, hcr] at this; exact absurd this (by decide)
      have h8' : u.length &&& 7 = 0 := by
        have : (7 : Nat) = 2 ^ 3 - 1 := rfl
        rw [this, Nat.and_two_pow_sub_one_eq_mod]; simpa using h8
      simp [this, h8', hcr]
    refine ⟨_, hpack, ?_⟩
    have hunp : Unpack7Bit (b ++ [o] ++ [cr]) 0 = u ++ [cr] := by
      apply unpack_of_bits _ _ [false] (septets_append hs (by intro y hy; simp at hy; subst hy; decide)) (by simp)
      rw [octetBits_append, hbits, septetBits_append, List.append_assoc]
      congr 1
    unfold Unpack7BitUSSD
    rw [hunp]
    rw [if_pos (by simp)]
    have h1 := idx_len_sub_one (b ++ [o]) cr
    have h2 : idx (b ++ [o] ++ [cr]) (((b ++ [o] ++ [cr]).length : Nat) - 2 : Int) = .ok o := by
      have : (((b ++ [o] ++ [cr]).length : Nat) : Int) - 2 = (b.length : Nat) := by simp
      rw [this]; simp [idx]
    simp only [bind, Except.bind, h1, h2, ho, hcr, true_and, or_true, if_true]
    simp [slice]
    intro h; omega
  · have hpack : Pack7BitUSSD u 0 = .ok (b ++ [o]) := by
      unfold Pack7BitUSSD
      rw [hb]
      simp only [List.length_append, List.length_singleton, Nat.add_eq_zero_iff, Nat.one_ne_zero, and_false,
        if_false, Nat.add_sub_cancel]
      simp only [bind, Except.bind, pure, Except.pure, idx_append_right, hul]
      have : ¬ (o &&& ~~~ 1 = 0 ∧ x ≠ 0) := fun h => h.2 (by rw [← ho]; exact (octet_facts o).1 h.1)
      rw [if_neg this, if_neg (by simp [hcr])]
    refine ⟨_, hpack, ?_⟩
    have hunp : Unpack7Bit (b ++ [o]) 0 = u := unpack_of_bits _ _ [] hs (by simp) (by simp [hbits])
    unfold Unpack7BitUSSD
    rw [hunp, if_pos (by simp; omega)]
    have h1 := idx_len_sub_one b o
    obtain ⟨y, h2⟩ := idx_len_sub_two b o hbl
    have hno : ¬ (o = cr) := fun h => hx (by rw [← ho]; exact (octet_facts o).2 h)
    simp only [bind, Except.bind, h1, h2, ho, hcr, hno, false_and, or_false, if_false]
    rfl

end Verif.Proofs
