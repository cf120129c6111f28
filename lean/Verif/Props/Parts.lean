import Verif.Model.Print
import Verif.Proofs.Basic

/-! C102: parts of an octet are set and read independently, and their names tell them apart. -/

namespace Verif.Props
open Verif.Model Verif.Proofs

/-- C102: the type of number is bits 6 to 4 and the numbering plan bits 3 to 0 of the type-of-address (TS 23.040
9.1.2.5). -/
theorem C102_toa (a : Address) :
    a.TOA.toNat = a.TOA.toNat / 128 * 128 + a.TypeOfNumber.toNat * 16 + a.NumberingPlan.toNat ∧
    a.TypeOfNumber.toNat < 8 ∧ a.NumberingPlan.toNat < 16 := by
  have : ∀ o : UInt8, o.toNat = o.toNat / 128 * 128 + ((o >>> 4) &&& 0x07).toNat * 16 + (o &&& 0x0f).toNat ∧
      ((o >>> 4) &&& 0x07).toNat < 8 ∧ (o &&& 0x0f).toNat < 16 := by apply forall_u8; decide +kernel
  exact this a.TOA

/-- C102: setting the type of number sets it, modulo 8, and leaves bit 7, the numbering plan and the number alone. -/
theorem C102_type_of_number (a : Address) (ton : UInt8) :
    (a.SetTypeOfNumber ton).TypeOfNumber.toNat = ton.toNat % 8 ∧ (a.SetTypeOfNumber ton).NumberingPlan = a.NumberingPlan ∧
    (a.SetTypeOfNumber ton).TOA.toNat / 128 = a.TOA.toNat / 128 ∧ (a.SetTypeOfNumber ton).Addr = a.Addr := by
  have h7 : ∀ t : UInt8, (t &&& 7).toNat = t.toNat % 8 ∧ ∃ n : Fin 8, t &&& 7 = UInt8.ofNat n := by
    apply forall_u8; decide +kernel
  have h : ∀ o : UInt8, ∀ n : Fin 8,
      (((andNot o 0x70 ||| (UInt8.ofNat n <<< 4)) >>> 4) &&& 0x07) = UInt8.ofNat n ∧
      (andNot o 0x70 ||| (UInt8.ofNat n <<< 4)) &&& 0x0f = o &&& 0x0f ∧
      (andNot o 0x70 ||| (UInt8.ofNat n <<< 4)).toNat / 128 = o.toNat / 128 := by apply forall_u8; decide +kernel
  obtain ⟨h1, n, h2⟩ := h7 ton
  obtain ⟨e1, e2, e3⟩ := h a.TOA n
  unfold Address.SetTypeOfNumber Address.TypeOfNumber Address.NumberingPlan
  simp only
  rw [h2, e1, ← h2]
  rw [h2] at h1 ⊢
  exact ⟨h1, e2, e3, trivial⟩

/-- C102: setting the numbering plan sets it, modulo 16, and leaves bit 7, the type of number and the number alone. -/
theorem C102_numbering_plan (a : Address) (np : UInt8) :
    (a.SetNumberingPlan np).NumberingPlan.toNat = np.toNat % 16 ∧ (a.SetNumberingPlan np).TypeOfNumber = a.TypeOfNumber ∧
    (a.SetNumberingPlan np).TOA.toNat / 128 = a.TOA.toNat / 128 ∧ (a.SetNumberingPlan np).Addr = a.Addr := by
  have h7 : ∀ t : UInt8, (t &&& 15).toNat = t.toNat % 16 ∧ ∃ n : Fin 16, t &&& 15 = UInt8.ofNat n := by
    apply forall_u8; decide +kernel
  have h : ∀ o : UInt8, ∀ n : Fin 16,
      (andNot o 0x0f ||| UInt8.ofNat n) &&& 0x0f = UInt8.ofNat n ∧
      ((andNot o 0x0f ||| UInt8.ofNat n) >>> 4) &&& (0x07 : UInt8) = (o >>> 4) &&& 0x07 ∧
      (andNot o 0x0f ||| UInt8.ofNat n).toNat / 128 = o.toNat / 128 := by apply forall_u8; decide +kernel
  obtain ⟨h1, n, h2⟩ := h7 np
  obtain ⟨e1, e2, e3⟩ := h a.TOA n
  unfold Address.SetNumberingPlan Address.TypeOfNumber Address.NumberingPlan
  simp only
  rw [h2, e1, ← h2]
  rw [h2] at h1 ⊢
  exact ⟨h1, e2, e3, trivial⟩

/-- The type-of-address that `SetNumber` makes. -/
def toaNumber (o : UInt8) : UInt8 :=
  (andNot ((andNot o 0x70) ||| ((Address.TonInternational &&& 0x7) <<< 4)) 0x0f) ||| (Address.NpISDN &&& 0x0f)

theorem toaNumber_spec (o : UInt8) : (toaNumber o >>> 4) &&& 0x07 = 1 ∧ toaNumber o &&& 0x0f = 1 ∧
    (toaNumber o).toNat / 128 = o.toNat / 128 := by
  revert o; apply forall_u8; decide +kernel

/-- C102: `SetNumber` makes any address international and of the ISDN plan, keeps bit 7, and takes the number
without a leading "+". -/
theorem C102_set_number (a : Address) (n : List UInt8) :
    (a.SetNumber n).TypeOfNumber = 1 ∧ (a.SetNumber n).NumberingPlan = 1 ∧
    (a.SetNumber n).TOA.toNat / 128 = a.TOA.toNat / 128 ∧
    (a.SetNumber n).Addr = (if n.head? = some 0x2b then n.tail else n) ∧
    (a.SetNumber n).Number = 0x2b :: (a.SetNumber n).Addr := by
  obtain ⟨e1, e2, e3⟩ := toaNumber_spec a.TOA
  have e : a.SetNumber n = ⟨toaNumber a.TOA, (a.SetNumber n).Addr⟩ := rfl
  refine ⟨by rw [e]; exact e1, by rw [e]; exact e2, by rw [e]; exact e3, ?_, ?_⟩
  · show (match n with | 0x2b :: rest => rest | n => n) = _
    split
    · rfl
    · next hn =>
      rw [if_neg]
      rcases n with _ | ⟨c, n⟩
      · simp
      · intro hc
        simp at hc
        exact hn n (by rw [hc])
  · unfold Address.Number
    rw [if_pos (by rw [e]; exact e1)]

/-- C102 (partial, missing: the addresses not made by `NewAddress`, see the counterexample): the addresses that
`NewAddress` makes have bit 7 of the type-of-address set, as TS 23.040 9.1.2.5 requires, and setting their parts keeps it
so. -/
theorem C102_bit7_partial (n m : List UInt8) (ton np : UInt8) :
    Address.New.TOA.toNat / 128 = 1 ∧ (Address.NewFromNumber n).TOA.toNat / 128 = 1 ∧
    ((((Address.NewFromNumber n).SetTypeOfNumber ton).SetNumberingPlan np).SetNumber m).TOA.toNat / 128 = 1 := by
  have h : (Address.NewFromNumber n).TOA.toNat / 128 = 1 := by
    have : ∀ o : UInt8, (o ||| 0x80).toNat / 128 = 1 := by apply forall_u8; decide +kernel
    exact this _
  refine ⟨by decide, h, ?_⟩
  rw [(C102_set_number _ _).2.2.1, (C102_numbering_plan _ _).2.2.1, (C102_type_of_number _ _).2.2.1, h]

/-- C102 (partial, missing: values that do not fit, see the counterexample): a format of validity periods or a message
type put into a first octet is read back and leaves the other bits alone. -/
theorem C102_first_octet_partial (f v : UInt8) (h : v.toNat < 4) :
    (FirstOctet.WithVPF f v).toNat = f.toNat / 32 * 32 + v.toNat * 8 + f.toNat % 8 ∧
    (FirstOctet.WithMTI f v).toNat = f.toNat / 4 * 4 + v.toNat ∧
    FirstOctet.VPF (FirstOctet.WithVPF f v) = v ∧ FirstOctet.MTI (FirstOctet.WithMTI f v) = v := by
  have key : ∀ f : UInt8, ∀ n : Fin 4,
      (FirstOctet.WithVPF f (UInt8.ofNat n)).toNat = f.toNat / 32 * 32 + (UInt8.ofNat n).toNat * 8 + f.toNat % 8 ∧
      (FirstOctet.WithMTI f (UInt8.ofNat n)).toNat = f.toNat / 4 * 4 + (UInt8.ofNat n).toNat ∧
      FirstOctet.VPF (FirstOctet.WithVPF f (UInt8.ofNat n)) = UInt8.ofNat n ∧
      FirstOctet.MTI (FirstOctet.WithMTI f (UInt8.ofNat n)) = UInt8.ofNat n := by apply forall_u8; decide +kernel
  have e : v = UInt8.ofNat (⟨v.toNat, h⟩ : Fin 4) := by simp
  rw [e]
  exact key f ⟨v.toNat, h⟩

/-- C102, exactly: a value is read back and leaves the other bits alone if and only if it fits. -/
theorem C102_first_octet_exact (v : UInt8) :
    ((∀ f, FirstOctet.VPF (FirstOctet.WithVPF f v) = v ∧ (FirstOctet.WithVPF f v) &&& 0xe7 = f &&& 0xe7) ↔ v.toNat < 4) ∧
    ((∀ f, FirstOctet.MTI (FirstOctet.WithMTI f v) = v ∧ (FirstOctet.WithMTI f v) &&& 0xfc = f &&& 0xfc) ↔ v.toNat < 4) := by
  have up : ∀ v : UInt8, FirstOctet.VPF (FirstOctet.WithVPF 0 v) = v → v.toNat < 4 := by apply forall_u8; decide +kernel
  have up' : ∀ v : UInt8, FirstOctet.MTI (FirstOctet.WithMTI 0 v) = v → v.toNat < 4 := by apply forall_u8; decide +kernel
  have down : ∀ f : UInt8, ∀ n : Fin 4, (FirstOctet.WithVPF f (UInt8.ofNat n)) &&& 0xe7 = f &&& 0xe7 ∧
      (FirstOctet.WithMTI f (UInt8.ofNat n)) &&& 0xfc = f &&& 0xfc := by apply forall_u8; decide +kernel
  refine ⟨⟨fun h => up v (h 0).1, fun h f => ⟨(C102_first_octet_partial f v h).2.2.1, ?_⟩⟩,
    ⟨fun h => up' v (h 0).1, fun h f => ⟨(C102_first_octet_partial f v h).2.2.2, ?_⟩⟩⟩
  all_goals
    have e : v = UInt8.ofNat (⟨v.toNat, h⟩ : Fin 4) := by simp
    rw [e]
    first | exact (down f ⟨v.toNat, h⟩).1 | exact (down f ⟨v.toNat, h⟩).2

theorem names_of (f : UInt8 → List UInt8) (N : Nat) (u : List UInt8) (hN : N < 256) (hu : f (UInt8.ofNat N) = u)
    (h1 : ∀ a : UInt8, f a = f (UInt8.ofNat (min a.toNat N)))
    (h2 : ∀ i j : Fin (N + 1), f (UInt8.ofNat i) = f (UInt8.ofNat j) → i = j) (a b : UInt8) :
    (f a = f b ↔ a = b ∨ N ≤ a.toNat ∧ N ≤ b.toNat) ∧ (f a = u ↔ N ≤ a.toNat) := by
  have key : ∀ b : UInt8, f a = f b ↔ min a.toNat N = min b.toNat N := by
    intro b
    constructor
    · intro h
      rw [h1 a, h1 b] at h
      have := h2 ⟨min a.toNat N, by omega⟩ ⟨min b.toNat N, by omega⟩ h
      exact congrArg Fin.val this
    · intro h
      rw [h1 a, h1 b, h]
  have hab : a = b ↔ a.toNat = b.toNat := UInt8.toNat_inj.symm
  refine ⟨by rw [key b, hab]; omega, ?_⟩
  rw [← hu, key]
  have : (UInt8.ofNat N).toNat = N := by simp; omega
  rw [this]; omega

theorem smsType_names : (∀ a : UInt8, SmsType.String a = SmsType.String (UInt8.ofNat (min a.toNat 6))) ∧
    ∀ i j : Fin (6 + 1), SmsType.String (UInt8.ofNat i) = SmsType.String (UInt8.ofNat j) → i = j :=
  ⟨by apply forall_u8; decide +kernel, by decide +kernel⟩

theorem messageType_names : (∀ a : UInt8, MessageType.String a = MessageType.String (UInt8.ofNat (min a.toNat 3))) ∧
    ∀ i j : Fin (3 + 1), MessageType.String (UInt8.ofNat i) = MessageType.String (UInt8.ofNat j) → i = j :=
  ⟨by apply forall_u8; decide +kernel, by decide +kernel⟩

theorem vpf_names : (∀ a : UInt8, ValidityPeriodFormat.String a = ValidityPeriodFormat.String (UInt8.ofNat (min a.toNat 4))) ∧
    ∀ i j : Fin (4 + 1), ValidityPeriodFormat.String (UInt8.ofNat i) = ValidityPeriodFormat.String (UInt8.ofNat j) → i = j :=
  ⟨by apply forall_u8; decide +kernel, by decide +kernel⟩

theorem evpf_names :
    (∀ a : UInt8, EnhancedValidityPeriodFormat.String a = EnhancedValidityPeriodFormat.String (UInt8.ofNat (min a.toNat 4))) ∧
    ∀ i j : Fin (4 + 1), EnhancedValidityPeriodFormat.String (UInt8.ofNat i) = EnhancedValidityPeriodFormat.String (UInt8.ofNat j) →
      i = j :=
  ⟨by apply forall_u8; decide +kernel, by decide +kernel⟩

/-- C102: two values of a kind have the same name only if they are the same or neither is defined, and exactly the
undefined ones are called "Unknown". -/
theorem C102_names (a b : UInt8) :
    ((SmsType.String a = SmsType.String b ↔ a = b ∨ 6 ≤ a.toNat ∧ 6 ≤ b.toNat) ∧ (SmsType.String a = b!"Unknown" ↔ 6 ≤ a.toNat)) ∧
    ((MessageType.String a = MessageType.String b ↔ a = b ∨ 3 ≤ a.toNat ∧ 3 ≤ b.toNat) ∧
      (MessageType.String a = b!"Unknown" ↔ 3 ≤ a.toNat)) ∧
    ((ValidityPeriodFormat.String a = ValidityPeriodFormat.String b ↔ a = b ∨ 4 ≤ a.toNat ∧ 4 ≤ b.toNat) ∧
      (ValidityPeriodFormat.String a = b!"Unknown" ↔ 4 ≤ a.toNat)) ∧
    (EnhancedValidityPeriodFormat.String a = EnhancedValidityPeriodFormat.String b ↔ a = b ∨ 4 ≤ a.toNat ∧ 4 ≤ b.toNat) ∧
      (EnhancedValidityPeriodFormat.String a = b!"Unknown" ↔ 4 ≤ a.toNat) :=
  ⟨names_of _ 6 _ (by decide) (by decide +kernel) smsType_names.1 smsType_names.2 a b,
   names_of _ 3 _ (by decide) (by decide +kernel) messageType_names.1 messageType_names.2 a b,
   names_of _ 4 _ (by decide) (by decide +kernel) vpf_names.1 vpf_names.2 a b,
   names_of _ 4 _ (by decide) (by decide +kernel) evpf_names.1 evpf_names.2 a b⟩

/-- C102 is false as stated: a zero `Address` that is given a number lacks bit 7 of the type-of-address; the format 4
set in a first octet is the flag of a status report request; the message type 4 the flag to reject duplicates. -/
theorem C102_counterexample :
    ((({} : Address).SetNumber b!"+61414").TOA = 0x11) ∧
    FirstOctet.WithVPF 0x01 4 = 0x21 ∧ FirstOctet.WithMTI 0x00 4 = 0x04 := by decide

/-- The address of an alphanumeric sender that is given a number. -/
example : ((⟨0xd0, b!"Shop"⟩ : Address).SetNumber b!"+61414") = ⟨0x91, b!"61414"⟩ := by decide
example : (1 : UInt8).toNat < 4 ∧ FirstOctet.WithVPF 0xff 1 = 0xef := by decide

end Verif.Props
