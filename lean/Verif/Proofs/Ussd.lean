import Verif.Proofs.SevenBit

/-! Helper lemmas for the exact form of C03: what USSD packing followed by unpacking returns. -/

namespace Verif.Proofs
open Verif.Model Verif.Model.Gsm7 Verif.Spec

theorem and7 (n : Nat) : n &&& 7 = n % 8 := by
  have : (7 : Nat) = 2 ^ 3 - 1 := rfl
  rw [this, Nat.and_two_pow_sub_one_eq_mod]

/-- `Pack7BitUSSD` in terms of the last octet of the packed form and the last septet. -/
theorem ussd_pack_concat (u a b : Bytes) (x o : UInt8) (fill : Nat) (hu : u = a ++ [x])
    (hb : Pack7Bit u fill = b ++ [o]) :
    Pack7BitUSSD u fill = .ok (if o &&& ~~~ 1 = 0 ∧ x ≠ 0 then b ++ [o ||| (cr <<< 1)]
      else if u.length % 8 = 0 ∧ x = cr then b ++ [o] ++ [cr] else b ++ [o]) := by
  have hul : idx u (u.length - 1 : Int) = .ok x := by rw [hu]; exact idx_len_sub_one a x
  unfold Pack7BitUSSD
  rw [hb, and7]
  simp only [List.length_append, List.length_singleton, Nat.add_eq_zero_iff, Nat.one_ne_zero, and_false,
    if_false, Nat.add_sub_cancel]
  simp only [bind, Except.bind, pure, Except.pure, idx_append_right, hul]
  split
  · simp
  · split <;> rfl

/-- `Unpack7BitUSSD` in terms of the last two octets. -/
theorem ussd_unpack_one (o : UInt8) (fill : Nat) :
    Unpack7BitUSSD [o] fill = .ok (Unpack7Bit [o] fill) := by
  unfold Unpack7BitUSSD; rfl

@[inherit_doc ussd_unpack_one]
theorem ussd_unpack_concat (b : Bytes) (y o : UInt8) (fill : Nat)
    (hne : Unpack7Bit (b ++ [y] ++ [o]) fill ≠ []) :
    Unpack7BitUSSD (b ++ [y] ++ [o]) fill = .ok (if o >>> 1 = cr ∨ (o = cr ∧ y >>> 1 = cr)
      then (Unpack7Bit (b ++ [y] ++ [o]) fill).dropLast else Unpack7Bit (b ++ [y] ++ [o]) fill) := by
  unfold Unpack7BitUSSD
  have h1 := idx_len_sub_one (b ++ [y]) o
  have h2 : idx (b ++ [y] ++ [o]) (((b ++ [y] ++ [o]).length : Nat) - 2 : Int) = .ok y := by
    have : (((b ++ [y] ++ [o]).length : Nat) : Int) - 2 = (b.length : Nat) := by simp
    rw [this]; simp [idx]
  generalize hv : Unpack7Bit (b ++ [y] ++ [o]) fill = v at hne
  rw [if_pos (by simp)]
  simp only [bind, Except.bind, h1, h2]
  split
  · obtain ⟨c, z, rfl⟩ := exists_concat v hne
    simp [slice]
    intro h; omega
  · rfl

theorem unpack_of_bits_fill (p v : Bytes) (F rest : List Bool) (fill : Nat) (hf : fill ≤ 7)
    (hF : F.length = fill) (hv : Septets v) (hr : rest.length < 7)
    (e : octetBits p = F ++ septetBits v ++ rest) : Unpack7Bit p fill = v := by
  obtain ⟨hs', rest', hr', e'⟩ := unpack7Bit_bits p fill hf
  rw [e, List.append_assoc, List.drop_left' hF] at e'
  exact (septets_unique _ _ _ _ hs' hv hr' hr e').1

theorem unpack_length (p : Bytes) (fill : Nat) (hf : fill ≤ 7) :
    ∃ r < 7, 7 * (Unpack7Bit p fill).length + r = 8 * p.length - fill := by
  obtain ⟨_, rest, hr, e⟩ := unpack7Bit_bits p fill hf
  have := congrArg List.length e
  simp only [List.length_append, septetBits_length, List.length_drop, octetBits_length] at this
  exact ⟨rest.length, hr, this⟩

/-- The last packed octet: the end of the last septet and the spare bits. -/
theorem last_octet_bits (u a b : Bytes) (x o : UInt8) (fill k : Nat) (hu : u = a ++ [x])
    (hk : 1 ≤ k) (hk7 : k ≤ 7)
    (e : octetBits (b ++ [o]) = List.replicate fill false ++ septetBits u ++ List.replicate k false) :
    bits 8 o.toNat = (bits 7 x.toNat).drop (k - 1) ++ List.replicate k false := by
  have l1 : septetBits u = septetBits a ++ ((bits 7 x.toNat).take (k - 1) ++ (bits 7 x.toNat).drop (k - 1)) := by
    rw [hu, septetBits_append, List.take_append_drop]; simp [septetBits]
  have l2 : octetBits (b ++ [o]) = octetBits b ++ bits 8 o.toNat := by
    rw [octetBits_append]; simp [octetBits]
  rw [l1, l2] at e
  have e' : octetBits b ++ bits 8 o.toNat =
      (List.replicate fill false ++ septetBits a ++ (bits 7 x.toNat).take (k - 1)) ++
      ((bits 7 x.toNat).drop (k - 1) ++ List.replicate k false) := by
    rw [e]; simp only [List.append_assoc]
  refine (List.append_inj' e' ?_).2
  simp only [List.length_append, List.length_drop, bits_length, List.length_replicate]
  omega

theorem octet_of_bits (o : UInt8) (n : Nat) (hn : n < 256) (h : bits 8 o.toNat = bits 8 n) :
    o = UInt8.ofNat n := by
  have := bits_inj (n := 8) o.toNat_lt hn h
  rw [← this, UInt8.ofNat_toNat]

theorem last_octet_cr : ∀ k, k < 8 → 1 ≤ k → ∃ n, n ≤ 13 ∧
    (bits 7 13).drop (k - 1) ++ List.replicate k false = bits 8 n := by
  intro k hk h1
  have h : ∀ k, k < 8 → 1 ≤ k →
      (bits 7 13).drop (k - 1) ++ List.replicate k false = bits 8 (13 >>> (k - 1)) := by decide
  refine ⟨13 >>> (k - 1), ?_, h k hk h1⟩
  rw [Nat.shiftRight_eq_div_pow]; exact Nat.div_le_self _ _

theorem small_octet : ∀ n, n ≤ 13 → UInt8.ofNat n >>> 1 ≠ cr := by decide

/-- With seven spare bits the last octet holds one bit. -/
theorem last_octet_7 : ∀ (x : Nat), x < 128 → (bits 7 x).drop 6 ++ List.replicate 7 false = bits 8 (x / 64) := by
  decide +kernel

theorem octet_01 : ∀ n, n < 2 → UInt8.ofNat n &&& ~~~ 1 = 0 ∧ UInt8.ofNat n >>> 1 ≠ cr ∧ UInt8.ofNat n ≠ cr ∧
    (UInt8.ofNat n ||| (cr <<< 1)) >>> 1 = cr ∧
    bits 8 (UInt8.ofNat n ||| (cr <<< 1)).toNat = bits 1 n ++ bits 7 13 := by decide

theorem ussd_one : ∀ (x : UInt8), x.toNat < 128 → ∀ fill < 2, x ≠ 0 → ∀ o, Pack7Bit [x] fill = [o] →
    o &&& ~~~ 1 = 0 → Unpack7Bit [o ||| (cr <<< 1)] fill ≠ [x] := by
  intro x hx fill hf h0 o ho
  have h : ∀ x : UInt8, ∀ fill < 2, x.toNat < 128 → x ≠ 0 → (Pack7Bit [x] fill).all (fun o =>
    decide (o &&& ~~~ 1 = 0 → Unpack7Bit [o ||| (cr <<< 1)] fill ≠ [x])) = true := by
      apply forall_u8; decide +kernel
  have := h x fill hf hx h0
  rw [ho] at this
  simp only [List.all_cons, List.all_nil, Bool.and_true, decide_eq_true_eq] at this
  exact this

theorem octet_and : ∀ o : UInt8, (o &&& ~~~ 1 = 0) ↔ o.toNat < 2 := by
  apply forall_u8; decide +kernel

/-- What the octets `b ++ [o]` unpack to is shortened by one exactly on the filler condition. -/
theorem ussd_unpack (b : Bytes) (o : UInt8) (fill : Nat) (hf : fill ≤ 7) :
    Unpack7BitUSSD (b ++ [o]) fill = .ok (if b ≠ [] ∧ (o >>> 1 = cr ∨ (o = cr ∧ b.getLast?.map (fun y : UInt8 => y >>> 1) = some cr))
      then (Unpack7Bit (b ++ [o]) fill).dropLast else Unpack7Bit (b ++ [o]) fill) := by
  by_cases hb : b = []
  · subst hb; rw [if_neg (by simp)]; exact ussd_unpack_one o fill
  · obtain ⟨c, y, rfl⟩ := exists_concat b hb
    rw [ussd_unpack_concat]
    · simp
    · intro h
      obtain ⟨r, hr, e⟩ := unpack_length (c ++ [y] ++ [o]) fill hf
      rw [h] at e
      simp at e
      omega

theorem ussd_exact (u a b : Bytes) (x o : UInt8) (fill : Nat) (hf : fill ≤ 7) (hs : Septets u)
    (hu : u = a ++ [x]) (hb : Pack7Bit u fill = b ++ [o]) :
    (∃ p, Pack7BitUSSD u fill = .ok p ∧ Unpack7BitUSSD p fill = .ok u) ↔
      if 8 * (b.length + 1) = fill + 7 * u.length + 7 then x ≠ 0
      else if o.toNat < 2 ∧ x ≠ 0 then False
      else if u.length % 8 = 0 ∧ x = 0x0d then fill = 0
      else ¬ (b ≠ [] ∧ (o >>> 1 = 0x0d ∨ (o = 0x0d ∧ b.getLast?.map (fun y : UInt8 => y >>> 1) = some 0x0d))) := by
  have hne : u ≠ [] := by simp [hu]
  have hupos : u.length ≥ 1 := by simp [hu]
  have hxs : x.toNat < 128 := hs x (by simp [hu])
  obtain ⟨k, hk, e⟩ := pack7Bit_bits u fill hf hs hne
  have hbl := congrArg List.length e
  simp only [octetBits_length, List.length_append, List.length_replicate, septetBits_length] at hbl
  rw [hb] at e hbl
  simp only [List.length_append, List.length_singleton] at hbl
  have hup := unpack_pack u fill hf hs
  rw [hb] at hup
  simp only [List.length_append, List.length_singleton] at hup
  have hand := octet_and o
  have hcr : (cr : UInt8) = 0x0d := rfl
  have key : (∃ p, Pack7BitUSSD u fill = .ok p ∧ Unpack7BitUSSD p fill = .ok u) ↔
      Unpack7BitUSSD (if o &&& ~~~ 1 = 0 ∧ x ≠ 0 then b ++ [o ||| (cr <<< 1)]
      else if u.length % 8 = 0 ∧ x = cr then b ++ [o] ++ [cr] else b ++ [o]) fill = .ok u := by
    rw [ussd_pack_concat u a b x o fill hu hb]
    constructor
    · rintro ⟨p, h1, h2⟩; cases h1; exact h2
    · intro h; exact ⟨_, rfl, h⟩
  rw [key]
  by_cases h7 : k = 7
  · -- seven spare bits
    subst h7
    rw [if_pos (show 8 * (b.length + 1) = fill + 7 * u.length + 7 by omega)]
    have ho8 := last_octet_bits u a b x o fill 7 hu (by omega) (by omega) e
    rw [last_octet_7 x.toNat hxs] at ho8
    have ho := octet_of_bits o (x.toNat / 64) (by omega) ho8
    obtain ⟨f1, f2, f3, f4, f5⟩ := octet_01 (x.toNat / 64) (by omega)
    rw [← ho] at f1 f2 f3 f4 f5
    by_cases hx : x = 0
    · rw [if_neg (by simp [hx]), if_neg (by simp [hx, cr]), ussd_unpack b o fill hf,
        if_neg (by simp [f2, f3]), hup, if_pos ⟨hne, by omega⟩]
      simp [hx]
    · rw [if_pos ⟨f1, hx⟩, ussd_unpack _ _ fill hf, if_pos ⟨by rintro rfl; simp at hbl; omega, .inl f4⟩]
      have hv : Unpack7Bit (b ++ [o ||| (cr <<< 1)]) fill = u ++ [cr] := by
        have e1 : octetBits b ++ bits 8 o.toNat = (List.replicate fill false ++ septetBits u) ++ List.replicate 7 false := by
          rw [← e, octetBits_append]; simp [octetBits]
        have e2 : bits 8 o.toNat = bits 1 (x.toNat / 64) ++ List.replicate 7 false := by
          rw [ho8]; exact (bits_of_lt (m := 1) 7 (by omega)).trans rfl |>.trans (by simp)
        rw [e2, ← List.append_assoc] at e1
        have e3 := List.append_cancel_right e1
        apply unpack_of_bits_fill _ _ (List.replicate fill false) [] fill hf (by simp)
          (septets_append hs (by intro y hy; simp at hy; subst hy; decide)) (by simp)
        rw [octetBits_append, septetBits_append]
        have : octetBits [o ||| (cr <<< 1)] = bits 8 (o ||| (cr <<< 1)).toNat := by simp [octetBits]
        rw [this, f5, ← List.append_assoc, e3]
        simp [septetBits, cr]
      rw [hv]; simp [hx]
  · rw [if_neg (show ¬ 8 * (b.length + 1) = fill + 7 * u.length + 7 by omega)]
    by_cases hA : o.toNat < 2 ∧ x ≠ 0
    · rw [if_pos hA, if_pos ⟨hand.2 hA.1, hA.2⟩, ussd_unpack _ _ fill hf]
      simp only [iff_false]
      obtain ⟨f1, f2, f3, f4, f5⟩ := octet_01 o.toNat hA.1
      rw [UInt8.ofNat_toNat] at f1 f2 f3 f4 f5
      by_cases hbn : b = []
      · subst hbn
        rw [if_neg (by simp)]
        simp at hbl
        have hlen1 : u.length = 1 := by omega
        obtain rfl : a = [] := by
          have := congrArg List.length hu; simp at this
          exact List.eq_nil_of_length_eq_zero (by omega)
        subst hu
        intro hc
        exact ussd_one x hxs fill (by omega) hA.2 o hb f1 (Except.ok.inj hc)
      · rw [if_pos ⟨hbn, .inl f4⟩]
        intro hc
        have hl := congrArg List.length (Except.ok.inj hc)
        obtain ⟨r, hr, er⟩ := unpack_length (b ++ [o ||| (cr <<< 1)]) fill hf
        simp only [List.length_dropLast, List.length_append, List.length_singleton] at hl er
        omega
    · rw [if_neg hA, if_neg (fun h => hA ⟨hand.1 h.1, h.2⟩)]
      by_cases hB : u.length % 8 = 0 ∧ x = 0x0d
      · have hB' : u.length % 8 = 0 ∧ x = cr := hB
        rw [if_pos hB, if_pos hB', ussd_unpack _ _ fill hf]
        by_cases hf0 : fill = 0
        · subst hf0
          obtain ⟨p, h1, h2⟩ := ussd_case_8n u hs x a hu hB.1 (by rw [hB.2]; decide)
          have := key.1 ⟨p, h1, h2⟩
          rw [if_neg (fun h => hA ⟨hand.1 h.1, h.2⟩), if_pos hB', ussd_unpack _ _ 0 hf] at this
          exact iff_of_true this rfl
        · simp only [hf0, iff_false]
          have ho8 := last_octet_bits u a b x o fill k hu (by omega) (by omega) e
          rw [hB.2] at ho8
          obtain ⟨n, hn, hn8⟩ := last_octet_cr k hk (by omega)
          have ho := octet_of_bits o n (by omega) (ho8.trans hn8)
          have hno := small_octet n hn
          rw [← ho] at hno
          rw [if_neg (by
            rintro ⟨_, h | ⟨_, h⟩⟩
            · exact absurd h (by decide)
            · simp at h; exact hno h)]
          intro hc
          have hl := congrArg List.length (Except.ok.inj hc)
          obtain ⟨r, hr, er⟩ := unpack_length (b ++ [o] ++ [cr]) fill hf
          simp only [List.length_append, List.length_singleton] at hl er
          omega
      · have hB' : ¬ (u.length % 8 = 0 ∧ x = cr) := hB
        rw [if_neg hB, if_neg hB', ussd_unpack _ _ fill hf, hup,
          if_neg (show ¬ (u ≠ [] ∧ 8 * (b.length + 1) = fill + 7 * u.length + 7) by omega), hcr]
        by_cases hC : b ≠ [] ∧ (o >>> 1 = 0x0d ∨ (o = 0x0d ∧ b.getLast?.map (fun y : UInt8 => y >>> 1) = some 0x0d))
        · rw [if_pos hC]
          refine iff_of_false (fun hc => ?_) (fun h => h hC)
          have hl := congrArg List.length (Except.ok.inj hc)
          simp at hl; omega
        · rw [if_neg hC]; exact iff_of_true rfl hC

end Verif.Proofs
