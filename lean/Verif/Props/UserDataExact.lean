import Verif.Props.UserData
import Verif.Spec.Elements

/-! C16: exactly which user data headers are accepted, and which are reproduced. -/

namespace Verif.Props
open Verif.Model Verif.Model.UDH Verif.Proofs Verif.Spec

theorem elements_iff (s : List UInt8) (udh : UDH) : Elements s udh ↔ s = ieBytes udh ∧ ∀ ie ∈ udh, ie.Data.length ≤ 255 := by
  constructor
  · intro h
    induction h with
    | nil => exact ⟨rfl, by simp⟩
    | @cons id len data s udh hl _ ih =>
      have := len.toNat_lt
      refine ⟨?_, ?_⟩
      · have hb : byteOf (data.length : Int) = len := by
          apply UInt8.toNat_inj.mp
          rw [toNat_byteOf]; omega
        show _ = id :: byteOf data.length :: data ++ ieBytes udh
        rw [hb, ← ih.1]
        rfl
      · intro ie hie
        rcases List.mem_cons.1 hie with rfl | hie
        · show data.length ≤ 255; omega
        · exact ih.2 ie hie
  · rintro ⟨rfl, h⟩
    induction udh with
    | nil => exact .nil
    | cons ie udh ih =>
      have hl := h ie (by simp)
      refine Elements.cons (len := byteOf ie.Data.length) ?_ (ih (fun x hx => h x (by simp [hx])))
      rw [toNat_byteOf]; omega

/-- The loop reads elements until the declared length is reached. -/
theorem unmarshal_loop_over (ies : UDH) : ∀ (pre rest : Bytes) (udhl fuel : Nat),
    (∀ ie ∈ ies, ie.Data.length ≤ 255) → ies.length < fuel → udhl ≤ pre.length + UDHL ies →
    (∀ a x, ies = a ++ [x] → pre.length + UDHL a + 2 ≤ udhl) →
    unmarshalLoop (pre ++ ieBytes ies ++ rest) udhl fuel pre.length = .ok ies := by
  induction ies with
  | nil =>
    intro pre rest udhl fuel _ hf hu _
    obtain ⟨fuel, rfl⟩ : ∃ k, fuel = k + 1 := ⟨fuel - 1, by simp at hf; omega⟩
    unfold unmarshalLoop
    rw [if_neg (by simp [UDHL] at hu; omega)]
  | cons ie t ih =>
    intro pre rest udhl fuel hd hf hu hlast
    obtain ⟨fuel, rfl⟩ : ∃ k, fuel = k + 1 := ⟨fuel - 1, by simp at hf; omega⟩
    have hie : ie.Data.length ≤ 255 := hd ie (by simp)
    have hb : (byteOf (ie.Data.length : Int)).toNat = ie.Data.length := by rw [toNat_byteOf]; omega
    have e0 : pre ++ ieBytes (ie :: t) ++ rest = pre ++ ie.ID :: (byteOf ie.Data.length :: ie.Data ++ ieBytes t ++ rest) := by
      simp [ieBytes]
    have e1 : pre ++ ieBytes (ie :: t) ++ rest =
        (pre ++ [ie.ID]) ++ byteOf ie.Data.length :: (ie.Data ++ ieBytes t ++ rest) := by simp [ieBytes]
    have e2 : pre ++ ieBytes (ie :: t) ++ rest =
        (pre ++ [ie.ID, byteOf ie.Data.length]) ++ ie.Data ++ (ieBytes t ++ rest) := by simp [ieBytes]
    have e3 : pre ++ ieBytes (ie :: t) ++ rest =
        (pre ++ ie.ID :: byteOf ie.Data.length :: ie.Data) ++ ieBytes t ++ rest := by simp [ieBytes]
    have h0 : idx (pre ++ ieBytes (ie :: t) ++ rest) (pre.length : Nat) = .ok ie.ID := by
      rw [e0]; exact idx_at _ _ _ _ rfl
    have h1 : idx (pre ++ ieBytes (ie :: t) ++ rest) (pre.length + 1 : Nat) = .ok (byteOf ie.Data.length) := by
      rw [e1]; exact idx_at _ _ _ _ (by simp)
    have h2 : slice (pre ++ ieBytes (ie :: t) ++ rest) (pre.length + 2 : Nat) (pre.length + 2 + ie.Data.length : Nat)
        = .ok ie.Data := by
      rw [e2]; exact slice_at _ _ _ _ _ (by simp) (by simp)
    have hl : (pre ++ ieBytes (ie :: t) ++ rest).length = pre.length + 2 + ie.Data.length + UDHL t + rest.length := by
      simp [ieBytes_length, udhl_cons]; omega
    have hroom : pre.length + 2 ≤ udhl := by
      rcases List.eq_nil_or_concat t with rfl | ⟨a, x, rfl⟩
      · have := hlast [] ie rfl
        simp [UDHL] at this; omega
      · have := hlast (ie :: a) x (by simp)
        rw [udhl_cons] at this; omega
    unfold unmarshalLoop
    rw [if_pos (by omega), if_neg (by omega), h0]
    simp only [ok_bind, h1, hb]
    rw [if_neg (by rw [hl]; omega), h2]
    simp only [ok_bind]
    have e4 : (pre ++ ie.ID :: byteOf ie.Data.length :: ie.Data).length = pre.length + 2 + ie.Data.length := by
      simp; omega
    have := ih (pre ++ ie.ID :: byteOf ie.Data.length :: ie.Data) rest udhl fuel
      (fun x hx => hd x (by simp [hx])) (by simp at hf; omega) (by rw [e4]; rw [udhl_cons] at hu; omega)
      (fun a x hax => by
        have := hlast (ie :: a) x (by rw [hax]; rfl)
        rw [udhl_cons] at this
        rw [e4]; omega)
    rw [← e3, e4] at this
    rw [this]
    rfl

/-- C16, exactly: the octets that are accepted as a header, and what is read.  They are a length `l`, elements that
take up `l` octets or more, the last of which has its identifier and length within the `l`, and whatever follows; `l`
octets follow the first.  `l + 1` is returned as the number read, though the data of the last element may lie beyond. -/
theorem C16_accepts_exact (src : List UInt8) (udh : UDH) (n : Nat) :
    UDH.UnmarshalBinary src = .ok (udh, n) ↔
    ∃ (l : UInt8) (body rest : List UInt8), src = l :: (body ++ rest) ∧ Elements body udh ∧ n = l.toNat + 1 ∧
      l.toNat ≤ body.length ∧ ∀ s x a, Elements s a → udh = a ++ [x] → s.length + 2 ≤ l.toNat := by
  constructor
  · intro h
    obtain ⟨l, rest, e, hn, _, hge, hall, hlast⟩ := udh_unmarshal_inv src udh n h
    refine ⟨l, ieBytes udh, rest, e, (elements_iff _ _).2 ⟨rfl, hall⟩, hn, by rw [ieBytes_length]; exact hge, ?_⟩
    intro s x a hs hax
    rw [((elements_iff _ _).1 hs).1, ieBytes_length]
    exact hlast a x hax
  · rintro ⟨l, body, rest, rfl, he, rfl, hge, hlast⟩
    obtain ⟨rfl, hall⟩ := (elements_iff _ _).1 he
    rw [ieBytes_length] at hge
    have hlast' : ∀ a x, udh = a ++ [x] → UDHL a + 2 ≤ l.toNat := by
      intro a x hax
      have := hlast (ieBytes a) x a ((elements_iff _ _).2 ⟨rfl, fun ie hie => hall ie (by rw [hax]; simp [hie])⟩) hax
      rw [ieBytes_length] at this
      exact this
    have hlen : udh.length < l.toNat + 1 := by
      rcases List.eq_nil_or_concat udh with rfl | ⟨a, x, rfl⟩
      · simp
      · have h1 := hlast' a x (by simp)
        have h2 := udh_length_le a
        simp; omega
    unfold UDH.UnmarshalBinary
    rw [if_neg (by simp)]
    simp only [idx_zero_cons, ok_bind]
    rw [if_neg (by simp [ieBytes_length]; omega)]
    have := unmarshal_loop_over udh [l] rest (l.toNat + 1) (l.toNat + 1) hall hlen (by simp; omega)
      (fun a x hax => by have := hlast' a x hax; simp; omega)
    have this' : unmarshalLoop (l :: (ieBytes udh ++ rest)) (l.toNat + 1) (l.toNat + 1) 1 = .ok udh := this
    rw [this']
    rfl

/-- C16, exactly: an accepted header is reproduced if and only if it is not empty and its elements take up the declared
length, neither of which the code checks. -/
theorem C16_reproduced_exact (src : List UInt8) (udh : UDH) (n : Nat) (h : UDH.UnmarshalBinary src = .ok (udh, n)) :
    udh.MarshalBinary = src.take n ↔ udh ≠ [] ∧ ∃ s, Elements s udh ∧ s.length + 1 = n := by
  obtain ⟨l, rest, e, hn, hle, hge, hall, hlast⟩ := udh_unmarshal_inv src udh n h
  constructor
  · intro hm
    have hne : udh ≠ [] := by
      rintro rfl
      rw [e, hn] at hm
      cases hm
    refine ⟨hne, ieBytes udh, (elements_iff _ _).2 ⟨rfl, hall⟩, ?_⟩
    have := congrArg List.length hm
    rw [udh_marshal_length udh hne, List.length_take] at this
    rw [ieBytes_length]; omega
  · rintro ⟨hne, s, hs, hl⟩
    refine (C16_within_partial src udh n h).2.2 ?_ hne
    rw [((elements_iff _ _).1 hs).1, ieBytes_length] at hl
    omega

/-- Beside C16: a header of two elements; one whose only element lies beyond the declared length but for its
identifier and length; and a declared length that ends within an identifier and length, which is rejected. -/
example : Elements [0, 3, 5, 2, 1, 0x24, 1, 1] [⟨0, [5, 2, 1]⟩, ⟨0x24, [1]⟩] ∧
    UDH.UnmarshalBinary [2, 0, 3, 0xa, 0xb, 0xc] = .ok ([⟨0, [0xa, 0xb, 0xc]⟩], 3) ∧
    UDH.UnmarshalBinary [1, 0, 0] = fail (newDecodeError "ie" 1 .underflow) :=
  ⟨.cons (data := [5, 2, 1]) rfl (.cons (data := [1]) rfl .nil), by decide, by decide⟩

end Verif.Props
