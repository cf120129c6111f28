import Verif.Spec.Coding
import Verif.Proofs.Basic

/-! C20, C21: the data coding scheme. -/

namespace Verif.Props
open Verif.Model Verif.Spec Verif.Proofs

/-- What C20 says about one DCS and alphabet. -/
def AlphabetUpdate (d : UInt8) (a : Alphabet) : Prop :=
  if CanCarry (group d) a then
    match DCS.WithAlphabet d a with
    | .ok d' => DCS.Alphabet d' = (a, none) ∧ DCS.Class d' = DCS.Class d ∧
        DCS.Compressed d' = DCS.Compressed d ∧ group d' = group d
    | .error _ => False
  else DCS.WithAlphabet d a = fail .invalid

instance (d : UInt8) (a : Alphabet) : Decidable (AlphabetUpdate d a) := by
  unfold AlphabetUpdate
  split
  · split <;> infer_instance
  · infer_instance

/-- C20: for the three defined alphabets, `WithAlphabet` succeeds exactly for the coding groups that can carry
the alphabet; the alphabet of the result is the one asked for, while class, compression and coding group are
unchanged. -/
theorem C20_with_alphabet (d : UInt8) (a : Alphabet) (ha : a ≠ .reserved) : AlphabetUpdate d a := by
  revert d
  cases a with
  | reserved => exact absurd rfl ha
  | a7Bit => apply forall_u8_dec; decide +kernel
  | a8Bit => apply forall_u8_dec; decide +kernel
  | ucs2 => apply forall_u8_dec; decide +kernel

/-- C20 needs a defined alphabet: `AlphaReserved` is accepted but reads back as 7 bit. -/
theorem C20_reserved : DCS.WithAlphabet 0 .reserved = .ok 0x0c ∧ DCS.Alphabet 0x0c = (.a7Bit, none) := by decide

/-- C20: for the four named alphabets, the argument as an `int` makes no difference. -/
theorem C20_int (d : UInt8) (a : Alphabet) :
    DCS.WithAlphabetInt d (a.toByte.toNat : Int) = DCS.WithAlphabet d a := by
  revert d
  cases a <;> (apply forall_u8_dec; decide +kernel)

/-- C20, every `int`: the call fails exactly where the coding group is reserved, or is one for message waiting
with another alphabet than the one asked for, or is 1111 and asked for more than `Alpha8Bit`.  So values that
are no alphabet are accepted in the groups 0xxx, and negative ones in 1111. -/
theorem C20_int_fails (d : UInt8) (a : Int) :
    (DCS.WithAlphabetInt d a = fail .invalid ↔
      8 ≤ group d ∧ group d ≤ 11 ∨ (group d = 12 ∨ group d = 13) ∧ a ≠ 0 ∨ group d = 14 ∧ a ≠ 2 ∨
        group d = 15 ∧ 1 < a) ∧
    (DCS.WithAlphabetInt d a ≠ fail .invalid → ∃ d', DCS.WithAlphabetInt d a = .ok d') := by
  have hg : (d &&& 0x80 = 0x00 ↔ group d ≤ 7) ∧ (d &&& 0xe0 = 0xc0 ↔ group d = 12 ∨ group d = 13) ∧
      (d &&& 0xf0 = 0xe0 ↔ group d = 14) ∧ (d &&& 0xf0 = 0xf0 ↔ group d = 15) ∧ group d ≤ 15 := by
    revert d; apply forall_u8_dec; decide +kernel
  obtain ⟨h1, h2, h3, h4, h5⟩ := hg
  unfold DCS.WithAlphabetInt
  simp only [h1, h2, h3, h4]
  have hne : ∀ x : UInt8, (Except.ok x : M UInt8) ≠ fail .invalid := by intro x h; cases h
  split
  · exact ⟨⟨fun h => absurd h (hne _), fun h => by omega⟩, fun _ => ⟨_, rfl⟩⟩
  · split
    · exact ⟨⟨fun h => absurd h (hne _), fun h => by omega⟩, fun _ => ⟨_, rfl⟩⟩
    · split
      · exact ⟨⟨fun h => absurd h (hne _), fun h => by omega⟩, fun _ => ⟨_, rfl⟩⟩
      · split
        · exact ⟨⟨fun h => absurd h (hne _), fun h => by omega⟩, fun _ => ⟨_, rfl⟩⟩
        · exact ⟨⟨fun _ => by omega, fun _ => rfl⟩, fun h => absurd rfl h⟩

/-- C20, every `int`: what is accepted in the groups 0xxx keeps the other bits exactly if bits 2 to 5 of the
argument are set only where those above the alphabet are set already; a value that is no alphabet can make a message compressed, or one of a class. -/
theorem C20_int_kept (d : UInt8) (a : Int) (hd : group d ≤ 7) : ∃ d', DCS.WithAlphabetInt d a = .ok d' ∧
    (d' &&& 0xf3 = d &&& 0xf3 ↔
      ∀ i, 2 ≤ i → i < 6 → (a % 64).toNat.testBit i = true → d.toNat.testBit (i + 2) = true) := by
  have h1 : d &&& 0x80 = 0x00 := by
    revert hd; revert d; apply forall_u8_dec; decide +kernel
  refine ⟨(andNot d 0x0c) ||| (byteOf a <<< 2), by unfold DCS.WithAlphabetInt; rw [if_pos h1], ?_⟩
  have e : byteOf a <<< 2 = UInt8.ofNat (a % 64).toNat <<< 2 := by
    unfold byteOf
    apply UInt8.toNat_inj.1
    simp only [UInt8.toNat_shiftLeft, UInt8.toNat_ofNat']
    simp [Nat.shiftLeft_eq]
    omega
  rw [e]
  have hlt : (a % 64).toNat < 64 := by omega
  generalize (a % 64).toNat = n at hlt
  clear e h1 hd
  have key : ∀ n < 64, ∀ m < 256, ((andNot (UInt8.ofNat m) 0x0c ||| (UInt8.ofNat n <<< 2)) &&& 0xf3 =
      UInt8.ofNat m &&& 0xf3 ↔ ∀ i < 4, n.testBit (i + 2) = true → m.testBit (i + 4) = true) := by
    decide +kernel
  have := key n hlt d.toNat d.toNat_lt
  rw [UInt8.ofNat_toNat] at this
  rw [this]
  refine ⟨fun h i h1 h2 h3 => ?_, fun h i h1 h2 => h (i + 2) (by omega) (by omega) h2⟩
  have := h (i - 2) (by omega) (by rwa [show i - 2 + 2 = i by omega])
  rwa [show i - 2 + 4 = i + 2 by omega] at this

/-- An alphabet of 4 makes a message one of class 0, and one of 8 makes it compressed; -1 is 8 bit. -/
example : DCS.WithAlphabetInt 0x00 4 = .ok 0x10 ∧ DCS.Class 0x00 ≠ DCS.Class 0x10 ∧
    DCS.WithAlphabetInt 0x00 8 = .ok 0x20 ∧ DCS.Compressed 0x20 = true ∧
    DCS.WithAlphabetInt 0xf0 (-1) = .ok 0xfc ∧ DCS.Alphabet 0xfc = (.a8Bit, none) := by decide

/-- C20: the alphabet reported is one the coding group can carry, and an error is reported exactly for
reserved groups. -/
theorem C20_alphabet_of_group (d : UInt8) :
    ((DCS.Alphabet d).2 = none → CanCarry (group d) (DCS.Alphabet d).1) ∧
    ((DCS.Alphabet d).2 ≠ none ↔ 8 ≤ group d ∧ group d ≤ 11) := by
  revert d
  apply forall_u8
  decide +kernel

/-- What C21 says about one DCS and class. -/
def ClassUpdate (d c : UInt8) : Prop :=
  if CanClass (group d) then
    match DCS.WithClass d c with
    | .ok d' => DCS.Class d' = (c, none) ∧ DCS.Alphabet d' = DCS.Alphabet d ∧ DCS.Compressed d' = DCS.Compressed d
    | .error _ => False
  else DCS.WithClass d c = fail .invalid

instance (d c : UInt8) : Decidable (ClassUpdate d c) := by
  unfold ClassUpdate
  split
  · split <;> infer_instance
  · infer_instance

/-- C21: for the classes 0..3, `WithClass` succeeds exactly for the groups with class bits; the class of the
result is the one asked for and alphabet and compression are unchanged. -/
theorem C21_with_class (d c : UInt8) (hc : c < 4) : ClassUpdate d c := by
  have : c = 0 ∨ c = 1 ∨ c = 2 ∨ c = 3 := by
    have h := UInt8.lt_iff_toNat_lt.mp hc
    have e : (4 : UInt8).toNat = 4 := rfl
    have : c.toNat = 0 ∨ c.toNat = 1 ∨ c.toNat = 2 ∨ c.toNat = 3 := by omega
    rcases this with h | h | h | h
    · exact .inl (UInt8.toNat_inj.mp h)
    · exact .inr (.inl (UInt8.toNat_inj.mp h))
    · exact .inr (.inr (.inl (UInt8.toNat_inj.mp h)))
    · exact .inr (.inr (.inr (UInt8.toNat_inj.mp h)))
  revert d
  rcases this with rfl | rfl | rfl | rfl
  all_goals apply forall_u8_dec; decide +kernel

/-- C21 needs a class 0..3: `MClassUnknown` (4) flips an alphabet bit. -/
theorem C21_unknown : DCS.WithClass 0 DCS.MClassUnknown = .ok 0x14 ∧ DCS.Alphabet 0x14 = (.a8Bit, none) := by decide

example : DCS.WithAlphabet 0x12 .ucs2 = .ok 0x1a ∧ DCS.WithAlphabet 0xc0 .ucs2 = fail .invalid ∧
    DCS.WithClass 0xf4 2 = .ok 0xf6 := by decide

end Verif.Props
