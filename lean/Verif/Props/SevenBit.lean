import Verif.Proofs.Ussd

/-! C01, C02, C03: 7-bit packing. -/

namespace Verif.Props
open Verif.Model.Gsm7 Verif.Spec Verif.Proofs

/-- C01: the packed form is the fill bits, the septets' bits, and fewer than 8 zero padding bits; its length
is the number of octets needed.  The empty string packs to nothing. -/
theorem C01_pack_layout (u : List UInt8) (fill : Nat) (hfill : fill ≤ 7) (hu : Septets u) (hne : u ≠ []) :
    (∃ k < 8, octetBits (Pack7Bit u fill) =
      List.replicate fill false ++ septetBits u ++ List.replicate k false) ∧
    (Pack7Bit u fill).length = (fill + 7 * u.length + 7) / 8 :=
  ⟨pack7Bit_bits u fill hfill hu hne, pack7Bit_length u fill hfill hu hne⟩

@[inherit_doc C01_pack_layout]
theorem C01_pack_empty (fill : Nat) : Pack7Bit [] fill = [] := rfl

example : Septets [0x31, 0x7f, 0x00] ∧ Pack7Bit [0x31, 0x7f, 0x00] 3 = [0x88, 0xfd, 0x01] := by
  unfold Septets; decide

/-- C02: unpacking yields the consecutive 7-bit groups after the fill bits; fewer than 7 bits are left over. -/
theorem C02_unpack_layout (p : List UInt8) (fill : Nat) (hfill : fill ≤ 7) :
    Septets (Unpack7Bit p fill) ∧ ∃ rest, rest.length < 7 ∧
      septetBits (Unpack7Bit p fill) ++ rest = (octetBits p).drop fill :=
  unpack7Bit_bits p fill hfill

/-- C02: unpacking inverts packing, up to one zero septet exactly when the packed form has 7 spare bits. -/
theorem C02_unpack_pack (u : List UInt8) (fill : Nat) (hfill : fill ≤ 7) (hu : Septets u) :
    Unpack7Bit (Pack7Bit u fill) fill =
      if u ≠ [] ∧ 8 * (Pack7Bit u fill).length - (fill + 7 * u.length) = 7 then u ++ [0] else u := by
  rw [unpack_pack u fill hfill hu]
  by_cases hne : u = []
  · simp [hne]
  · have := pack7Bit_length u fill hfill hu hne
    congr 1
    simp only [ne_eq, hne, not_false_eq_true, true_and, eq_iff_iff]
    omega

example : Unpack7Bit (Pack7Bit [1, 2, 3, 4, 5, 6, 7] 0) 0 = [1, 2, 3, 4, 5, 6, 7, 0] := by decide
example : Unpack7Bit (Pack7Bit [1, 2, 3] 5) 5 = [1, 2, 3] := by decide

/-- C03 (false of the code): the one-septet message 0x01 comes back as 0x1b, because the test for "7 spare
bits" in `Pack7BitUSSD` looks at the value of the last octet. -/
theorem C03_ussd_counterexample :
    ∃ u p v, Septets u ∧ Pack7BitUSSD u 0 = .ok p ∧ Unpack7BitUSSD p 0 = .ok v ∧ u.length % 8 ≠ 7 ∧
      v ≠ u ∧ v ≠ u ++ [0x0d] :=
  ⟨[1], [0x1b], [0x1b], by unfold Septets; decide, by decide, by decide, by decide, by decide, by decide⟩

/-- C03 (false of the code): an 8n-1 septet message ending in '@' (septet 0) gains a zero septet. -/
theorem C03_ussd_counterexample_at :
    ∃ p, Pack7BitUSSD [1, 1, 1, 1, 1, 1, 0] 0 = .ok p ∧
      Unpack7BitUSSD p 0 = .ok [1, 1, 1, 1, 1, 1, 0, 0] :=
  ⟨[0x81, 0x40, 0x20, 0x10, 0x08, 0x00, 0x00], by decide, by decide⟩

/-- C03, partial: without fill bits, messages of 8n-1 septets that do not end in septet 0, and messages of
8n septets that do not end in septet 6, round-trip.  Missing: other lengths, other fill counts and the
excluded last septets, for which the statement is false in general (counterexamples above). -/
theorem C03_ussd_roundtrip_partial (u : List UInt8) (hu : Septets u)
    (h : (u.length % 8 = 7 ∧ u.getLast? ≠ some 0) ∨ (u.length % 8 = 0 ∧ u.getLast? ≠ some 6)) :
    ∃ p, Pack7BitUSSD u 0 = .ok p ∧ Unpack7BitUSSD p 0 = .ok u := by
  by_cases hne : u = []
  · subst hne; exact ⟨[], rfl, rfl⟩
  · obtain ⟨a, x, hx⟩ := exists_concat u hne
    rcases h with ⟨h7, hl⟩ | ⟨h8, hl⟩
    · exact ussd_case_7 u hu x a hx h7 (by rintro rfl; simp [hx] at hl)
    · exact ussd_case_8n u hu x a hx h8 (by rintro rfl; simp [hx] at hl)

example : Pack7BitUSSD [0x41, 0x42, 0x43, 0x44, 0x45, 0x46, 0x47] 0 =
    .ok [0x41, 0xe1, 0x90, 0x58, 0x34, 0x1e, 0x1b] := by decide

/-- C03, exactly: which messages round-trip, for every message and every number of fill bits.  `x` is the
last septet, `o` the last packed octet and `b` the octets before it.  With seven spare bits the last septet
must not be 0.  Otherwise the seven high bits of `o` must not be 0 unless `x` is; a CR that ends a multiple
of eight septets is safe only without fill bits; and otherwise the end of the packed form must not look like
a filler CR.  The statement of C03 asks only for the CR ambiguity, so it is false in the other cases. -/
theorem C03_exact (u a b : List UInt8) (x o : UInt8) (fill : Nat) (hf : fill ≤ 7) (hs : Septets u)
    (hu : u = a ++ [x]) (hb : Pack7Bit u fill = b ++ [o]) :
    (∃ p, Pack7BitUSSD u fill = .ok p ∧ Unpack7BitUSSD p fill = .ok u) ↔
      if 8 * (b.length + 1) = fill + 7 * u.length + 7 then x ≠ 0
      else if o.toNat < 2 ∧ x ≠ 0 then False
      else if u.length % 8 = 0 ∧ x = 0x0d then fill = 0
      else ¬ (b ≠ [] ∧ (o >>> 1 = 0x0d ∨
        (o = 0x0d ∧ b.getLast?.map (fun y : UInt8 => y >>> 1) = some 0x0d))) :=
  ussd_exact u a b x o fill hf hs hu hb

@[inherit_doc C03_exact]
theorem C03_empty (fill : Nat) :
    Pack7BitUSSD [] fill = .ok [] ∧ Unpack7BitUSSD [] fill = .ok [] := ⟨rfl, rfl⟩

/-- A message of three septets after five fill bits that round-trips, and a CR ending at an octet boundary
after two fill bits that is taken for filler. -/
example : Pack7Bit [0x41, 0x42, 0x43] 5 = [32, 40, 28, 2] ∧ Septets [0x41, 0x42, 0x43] ∧
    Unpack7BitUSSD [32, 40, 28, 2] 5 = .ok [0x41, 0x42, 0x43] := by unfold Septets; decide
example : Pack7BitUSSD [0x41, 0x0d] 2 = .ok [4, 27] ∧ Unpack7BitUSSD [4, 27] 2 = .ok [0x41] := by decide

end Verif.Props
