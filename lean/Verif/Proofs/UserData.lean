import Verif.Model.UserData
import Verif.Proofs.Basic

/-! Helper lemmas for user data headers. -/

namespace Verif.Proofs
open Verif.Model Verif.Model.UDH

/-- The octets of the elements. -/
def ieBytes (udh : UDH) : Bytes := udh.flatMap (fun ie => ie.ID :: byteOf ie.Data.length :: ie.Data)

theorem ieBytes_length (udh : UDH) : (ieBytes udh).length = udh.UDHL := by
  induction udh with
  | nil => rfl
  | cons ie t ih =>
    simp only [ieBytes, UDHL, List.flatMap_cons, List.length_append, List.length_cons, List.map_cons, List.sum_cons] at *
    omega

theorem udhl_cons (ie : IE) (t : UDH) : UDHL (ie :: t) = 2 + ie.Data.length + UDHL t := rfl

theorem udhl_append (a b : UDH) : UDHL (a ++ b) = UDHL a + UDHL b := by
  induction a with
  | nil => simp [UDHL]
  | cons x t ih => rw [List.cons_append, udhl_cons, udhl_cons, ih]; omega

theorem unmarshal_loop (ies : UDH) : ∀ (pre rest : Bytes) (fuel : Nat),
    (∀ ie ∈ ies, ie.Data.length ≤ 255) → ies.length < fuel →
    unmarshalLoop (pre ++ ieBytes ies ++ rest) (pre.length + UDHL ies) fuel pre.length = .ok ies := by
  induction ies with
  | nil =>
    intro pre rest fuel _ hf
    obtain ⟨fuel, rfl⟩ : ∃ k, fuel = k + 1 := ⟨fuel - 1, by simp at hf; omega⟩
    unfold unmarshalLoop
    rw [if_neg (by simp [UDHL])]
  | cons ie t ih =>
    intro pre rest fuel hd hf
    obtain ⟨fuel, rfl⟩ : ∃ k, fuel = k + 1 := ⟨fuel - 1, by simp at hf; omega⟩
    have hie : ie.Data.length ≤ 255 := hd ie (by simp)
    have hb : (byteOf (ie.Data.length : Int)).toNat = ie.Data.length := by rw [toNat_byteOf]; omega
    have e0 : pre ++ ieBytes (ie :: t) ++ rest = pre ++ ie.ID :: (byteOf ie.Data.length :: ie.Data ++ ieBytes t ++ rest) := by
      simp [ieBytes]
    have e1 : pre ++ ieBytes (ie :: t) ++ rest =
        (pre ++ [ie.ID]) ++ byteOf ie.Data.length :: (ie.Data ++ ieBytes t ++ rest) := by simp [ieBytes]
    have e2 : pre ++ ieBytes (ie :: t) ++ rest =
        (pre ++ [ie.ID, byteOf ie.Data.length]) ++ ie.Data ++ (ieBytes t ++ rest) := by simp [ieBytes]
    have e3 : pre ++ ieBytes (ie :: t) ++ rest =
        (pre ++ ie.ID :: byteOf ie.Data.length :: ie.Data) ++ ieBytes t ++ rest := by simp [ieBytes]
    have h0 : idx (pre ++ ieBytes (ie :: t) ++ rest) (pre.length : Nat) = .ok ie.ID := by
      rw [e0]; exact idx_at _ _ _ _ rfl
    have h1 : idx (pre ++ ieBytes (ie :: t) ++ rest) (pre.length + 1 : Nat) = .ok (byteOf ie.Data.length) := by
      rw [e1]; exact idx_at _ _ _ _ (by simp)
    have h2 : slice (pre ++ ieBytes (ie :: t) ++ rest) (pre.length + 2 : Nat) (pre.length + 2 + ie.Data.length : Nat)
        = .ok ie.Data := by
      rw [e2]; exact slice_at _ _ _ _ _ (by simp) (by simp)
    have hl : (pre ++ ieBytes (ie :: t) ++ rest).length = pre.length + 2 + ie.Data.length + UDHL t + rest.length := by
      simp [ieBytes_length, udhl_cons]; omega
    unfold unmarshalLoop
    rw [udhl_cons, if_pos (by omega), if_neg (by omega), h0]
    simp only [ok_bind, h1, hb]
    rw [if_neg (by rw [hl]; omega), h2]
    simp only [ok_bind]
    have := ih (pre ++ ie.ID :: byteOf ie.Data.length :: ie.Data) rest fuel
      (fun x hx => hd x (by simp [hx])) (by simp at hf; omega)
    rw [← e3] at this
    have e4 : (pre ++ ie.ID :: byteOf ie.Data.length :: ie.Data).length = pre.length + 2 + ie.Data.length := by
      simp; omega
    have e5 : pre.length + (2 + ie.Data.length + UDHL t) = pre.length + 2 + ie.Data.length + UDHL t := by omega
    rw [e4] at this
    rw [e5, this]
    rfl

theorem udh_length_le (udh : UDH) : 2 * udh.length ≤ UDHL udh := by
  induction udh with
  | nil => simp [UDHL]
  | cons x t ih => rw [udhl_cons, List.length_cons]; omega

theorem udh_marshal_eq (udh : UDH) (hne : udh ≠ []) : udh.MarshalBinary = byteOf udh.UDHL :: ieBytes udh := by
  unfold MarshalBinary
  rw [if_neg (by simpa using hne)]; rfl

theorem udh_marshal_length (udh : UDH) (hne : udh ≠ []) : udh.MarshalBinary.length = udh.UDHL + 1 := by
  rw [udh_marshal_eq udh hne]; simp [ieBytes_length]

theorem ie_len_of_udhl (udh : UDH) (h : udh.UDHL ≤ 255) : ∀ ie ∈ udh, ie.Data.length ≤ 255 := by
  induction udh with
  | nil => simp
  | cons x t ih =>
    rw [udhl_cons] at h
    intro ie hie
    rcases List.mem_cons.mp hie with rfl | hie
    · omega
    · exact ih (by omega) ie hie

theorem udh_roundtrip (udh : UDH) (hne : udh ≠ []) (h : udh.UDHL ≤ 255) (rest : Bytes) :
    UnmarshalBinary (udh.MarshalBinary ++ rest) = .ok (udh, udh.UDHL + 1) := by
  have hb : (byteOf (udh.UDHL : Int)).toNat = udh.UDHL := by rw [toNat_byteOf]; omega
  rw [udh_marshal_eq udh hne]
  unfold UnmarshalBinary
  rw [if_neg (by simp)]
  simp only [List.cons_append, idx_zero_cons, ok_bind, hb]
  rw [if_neg (by simp [ieBytes_length])]
  have := unmarshal_loop udh [byteOf udh.UDHL] rest (udh.UDHL + 1) (ie_len_of_udhl udh h)
    (by have := udh_length_le udh; omega)
  have e : [byteOf (udh.UDHL : Int)].length + UDHL udh = UDHL udh + 1 := by simp; omega
  rw [e] at this
  have e' : [byteOf (udh.UDHL : Int)] ++ ieBytes udh ++ rest = byteOf (udh.UDHL : Int) :: (ieBytes udh ++ rest) := by simp
  rw [e'] at this
  have this' : unmarshalLoop (byteOf (udh.UDHL : Int) :: (ieBytes udh ++ rest)) (UDHL udh + 1) (UDHL udh + 1) 1 = .ok udh := this
  rw [this']
  rfl

theorem unmarshal_loop_inv (src : Bytes) (udhl : Nat) : ∀ (fuel ri : Nat) (ies : UDH),
    unmarshalLoop src udhl fuel ri = .ok ies →
    ∃ rest, src.drop ri = ieBytes ies ++ rest ∧ (∀ ie ∈ ies, ie.Data.length ≤ 255) ∧
      (ri ≤ udhl → udhl ≤ ri + UDHL ies) ∧
      (∀ a x, ies = a ++ [x] → ri + UDHL a + 2 ≤ udhl) := by
  intro fuel
  induction fuel with
  | zero => intro ri ies h; cases h
  | succ fuel ih =>
    intro ri ies h
    unfold unmarshalLoop at h
    split at h
    · rename_i hlt
      split at h
      · cases h
      rename_i hle
      obtain ⟨id, hid, h⟩ := bind_eq_ok.mp h
      obtain ⟨l, hl, h⟩ := bind_eq_ok.mp h
      simp only at h
      split at h
      · cases h
      obtain ⟨data, hdata, h⟩ := bind_eq_ok.mp h
      obtain ⟨t, ht, h⟩ := bind_eq_ok.mp h
      cases h
      have hid' := idx_eq_ok hid
      have hl' := idx_eq_ok hl
      obtain ⟨_, h2, hd⟩ := slice_eq_ok hdata
      have hdl : data.length = l.toNat := by rw [hd]; simp; omega
      obtain ⟨rest, hr, hall, hge, hlast⟩ := ih (ri + 2 + l.toNat) t ht
      have hb : byteOf (data.length : Int) = l := by
        apply UInt8.toNat_inj.mp; rw [toNat_byteOf, hdl]; have := l.toNat_lt; omega
      refine ⟨rest, ?_, ?_, ?_, ?_⟩
      · have s1 : src.drop ri = id :: src.drop (ri + 1) := by
          obtain ⟨hh, hh'⟩ := List.getElem?_eq_some_iff.mp hid'
          rw [List.drop_eq_getElem_cons hh, hh']
        have s2 : src.drop (ri + 1) = l :: src.drop (ri + 2) := by
          obtain ⟨hh, hh'⟩ := List.getElem?_eq_some_iff.mp hl'
          rw [List.drop_eq_getElem_cons hh, hh']
        have s3 : src.drop (ri + 2) = data ++ src.drop (ri + 2 + l.toNat) := by
          have := List.take_append_drop l.toNat (src.drop (ri + 2))
          rw [List.drop_drop] at this
          rw [← this]
          congr 1
          rw [hd, List.drop_take]
          congr 1; omega
        rw [s1, s2, s3, hr]
        simp [ieBytes, hb]
      · intro ie hie
        rcases List.mem_cons.mp hie with rfl | hie
        · show data.length ≤ 255
          have := l.toNat_lt; omega
        · exact hall ie hie
      · intro _
        rw [udhl_cons]
        show udhl ≤ ri + (2 + data.length + UDHL t)
        by_cases hc : ri + 2 + l.toNat ≤ udhl
        · have := hge hc; omega
        · omega
      · intro a x hax
        cases a with
        | nil => simp [UDHL]; omega
        | cons y a =>
          simp only [List.cons_append, List.cons.injEq] at hax
          have := hlast a x hax.2
          rw [udhl_cons, ← hax.1]
          show ri + (2 + data.length + UDHL a) + 2 ≤ udhl
          omega
    · cases h
      refine ⟨src.drop ri, by simp [ieBytes], by simp, by simp [UDHL]; omega, by simp⟩

/-- What a successful parse says about the input. -/
theorem udh_unmarshal_inv (src : Bytes) (udh : UDH) (n : Nat) (h : UnmarshalBinary src = .ok (udh, n)) :
    ∃ l rest, src = l :: (ieBytes udh ++ rest) ∧ n = l.toNat + 1 ∧ n ≤ src.length ∧ l.toNat ≤ UDHL udh ∧
      (∀ ie ∈ udh, ie.Data.length ≤ 255) ∧ (∀ a x, udh = a ++ [x] → UDHL a + 2 ≤ l.toNat) := by
  unfold UnmarshalBinary at h
  split at h
  · cases h
  obtain ⟨l, hl, h⟩ := bind_eq_ok.mp h
  simp only at h
  split at h
  · cases h
  rename_i hlen
  obtain ⟨ies, hies, h⟩ := bind_eq_ok.mp h
  cases h
  cases src with
  | nil => simp at hlen
  | cons x src =>
    cases hl
    obtain ⟨rest, hr, hall, hge, hlast⟩ := unmarshal_loop_inv _ _ _ _ _ hies
    refine ⟨l, rest, by rw [← hr]; rfl, rfl, by omega, ?_, hall, ?_⟩
    · have := hge (by omega); omega
    · intro a y hay; have := hlast a y hay; omega

end Verif.Proofs
