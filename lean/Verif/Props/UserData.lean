import Verif.Proofs.UserData

/-! C15, C16: user data headers. -/

namespace Verif.Props
open Verif.Model Verif.Proofs

/-- C15: a non-empty header whose total length fits the length octet round-trips, whatever follows it. -/
theorem C15_udh_roundtrip (udh : UDH) (hne : udh ≠ []) (h : udh.UDHL ≤ 255) (rest : List UInt8) :
    udh.MarshalBinary.length = udh.UDHL + 1 ∧
    UDH.UnmarshalBinary (udh.MarshalBinary ++ rest) = .ok (udh, udh.UDHL + 1) :=
  ⟨udh_marshal_length udh hne, udh_roundtrip udh hne h rest⟩

/-- C15: an empty header marshals to nothing (there is no length octet). -/
theorem C15_empty : UDH.MarshalBinary [] = [] := rfl

/-- C15: `IE` finds the last element with the identifier. -/
theorem C15_ie_some (udh : UDH) (id : UInt8) (ie : IE) :
    udh.IE id = some ie ↔ ie.ID = id ∧ ∃ a b, udh = a ++ ie :: b ∧ ∀ x ∈ b, x.ID ≠ id := by
  unfold UDH.IE
  rw [List.find?_eq_some_iff_append]
  constructor
  · rintro ⟨h, as, bs, e, hn⟩
    refine ⟨by simpa using h, bs.reverse, as.reverse, ?_, by simpa using hn⟩
    have := congrArg List.reverse e
    simpa using this
  · rintro ⟨h, a, b, e, hn⟩
    exact ⟨by simpa using h, b.reverse, a.reverse, by simp [e], by simpa using hn⟩

/-- C15: `IE` finds nothing exactly when there is no element with the identifier. -/
theorem C15_ie_none (udh : UDH) (id : UInt8) : udh.IE id = none ↔ ∀ x ∈ udh, x.ID ≠ id := by
  simp [UDH.IE]

/-- C15: `IEs` returns, in order, exactly the elements with the identifier. -/
theorem C15_ies (udh : UDH) (id : UInt8) :
    (udh.IEs id).Sublist udh ∧ (∀ x ∈ udh.IEs id, x.ID = id) ∧
    (udh.IEs id).length = udh.countP (fun x => x.ID = id) := by
  refine ⟨List.filter_sublist, fun x hx => by simpa using (List.mem_filter.mp hx).2, ?_⟩
  unfold UDH.IEs
  rw [List.countP_eq_length_filter]

example : UDH.UDHL [⟨0, [5, 2, 1]⟩, ⟨0x24, [1]⟩] = 8 ∧
    UDH.MarshalBinary [⟨0, [5, 2, 1]⟩, ⟨0x24, [1]⟩] = [8, 0, 3, 5, 2, 1, 0x24, 1, 1] ∧
    UDH.UnmarshalBinary [8, 0, 3, 5, 2, 1, 0x24, 1, 1, 0xff] = .ok ([⟨0, [5, 2, 1]⟩, ⟨0x24, [1]⟩], 9) := by
  decide

/-- C16 is false as stated: the data of the last element may lie beyond the declared length (here 3, while
the element returned takes 5 octets), and re-marshalling does not reproduce the bytes. -/
theorem C16_counterexample : ∃ src udh n, UDH.UnmarshalBinary src = .ok (udh, n) ∧
    udh.MarshalBinary ≠ src.take n ∧ udh.UDHL + 1 > n := by
  refine ⟨[2, 0, 3, 0xa, 0xb, 0xc], [⟨0, [0xa, 0xb, 0xc]⟩], 3, ?_, ?_, ?_⟩ <;> decide

/-- C16 is also false for a header declared empty: nothing is marshalled for it. -/
theorem C16_counterexample_empty : UDH.UnmarshalBinary [0] = .ok ([], 1) ∧ UDH.MarshalBinary [] = [] := by decide

/-- C16 (partial): on success the number of bytes read is the declared length plus one and within the input;
re-marshalling reproduces those bytes provided the elements do not overrun the declared length
(`UDHL ≤ n - 1`), which is the check missing from the code.  Missing from the full property: that
the elements never overrun. -/
theorem C16_within_partial (src : List UInt8) (udh : UDH) (n : Nat) (h : UDH.UnmarshalBinary src = .ok (udh, n)) :
    n ≤ src.length ∧ src.head?.map (fun l => l.toNat + 1) = some n ∧
    (udh.UDHL + 1 ≤ n → udh ≠ [] → udh.MarshalBinary = src.take n) := by
  obtain ⟨l, rest, e, hn, hle, hge, hall, _⟩ := udh_unmarshal_inv src udh n h
  refine ⟨hle, by rw [e]; simp [hn], fun hu hne => ?_⟩
  have hu' : udh.UDHL = l.toNat := by omega
  rw [udh_marshal_eq udh hne, e, hn, ← hu', List.take_succ_cons, ← ieBytes_length, List.take_left' rfl, ieBytes_length,
    hu']
  congr 1
  apply UInt8.toNat_inj.mp
  rw [toNat_byteOf]; have := l.toNat_lt; omega

/-- C16 (partial): only the data of the last element can overrun: every other element, and the identifier and
length octets of the last, lie within the declared length; and all data lies within the input. -/
theorem C16_only_last_overruns_partial (src : List UInt8) (udh : UDH) (n : Nat)
    (h : UDH.UnmarshalBinary src = .ok (udh, n)) :
    udh.UDHL + 1 ≤ src.length ∧ n ≤ udh.UDHL + 1 ∧
    ∀ (a : UDH) (x : IE), udh = a ++ [x] → a.UDHL + 2 + 1 ≤ n := by
  obtain ⟨l, rest, e, hn, hle, hge, hall, hlast⟩ := udh_unmarshal_inv src udh n h
  refine ⟨by rw [e]; simp [ieBytes_length], by omega, fun a x hax => ?_⟩
  have := hlast a x hax; omega

/-- C16 (partial): in particular it holds when nothing follows the header. -/
theorem C16_exact_partial (src : List UInt8) (udh : UDH) (n : Nat) (h : UDH.UnmarshalBinary src = .ok (udh, n))
    (hn : src.length = n) (hne : udh ≠ []) : udh.MarshalBinary = src := by
  have h1 := C16_only_last_overruns_partial src udh n h
  have h2 := (C16_within_partial src udh n h).2.2 (by omega) hne
  rw [h2, ← hn, List.take_length]

example : UDH.UnmarshalBinary [5, 0, 3, 5, 2, 1] = .ok ([⟨0, [5, 2, 1]⟩], 6) := by decide

end Verif.Props
