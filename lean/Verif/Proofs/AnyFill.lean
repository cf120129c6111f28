import Verif.Model.SevenBitAny
import Verif.Proofs.SevenBit
import Verif.Proofs.Basic

namespace Verif.Proofs
open Verif.Model Verif.Model.Gsm7 Verif.Spec

theorem u64_nat (n : Nat) (h : n < 0x10000000000000000) : u64 n = n := by unfold u64; omega

theorem shl8_eight (x : UInt8) : shl8 x 8 = 0 := by
  have := x.toNat_lt
  have e : x.toNat <<< 8 = x.toNat * 256 := by simp [Nat.shiftLeft_eq]
  unfold shl8; rw [e]
  apply UInt8.toNat_inj.1
  simp

/-- The loop with `uint` arithmetic is the loop of `Model/SevenBit.lean` for up to eight residual bits. -/
theorem packLoopAny_eq (u : Bytes) : ∀ (r : UInt8) (rbits : Nat), rbits ≤ 8 →
    packLoopAny u r rbits = packLoop u r rbits := by
  induction u with
  | nil => intro r rbits _; rfl
  | cons s u ih =>
    intro r rbits h
    unfold packLoopAny packLoop
    by_cases h0 : rbits = 0
    · rw [if_pos h0, if_pos h0]; exact ih _ _ (by omega)
    · rw [if_neg h0, if_neg h0]
      have e1 : u64 ((rbits : Int) - 1) = rbits - 1 := by unfold u64; omega
      have e2 : u64 (8 - (rbits : Int)) = 8 - rbits := by unfold u64; omega
      have e3 : shlU s rbits = shl8 s rbits := by
        unfold shlU
        split
        · rfl
        · rw [show rbits = 8 by omega, shl8_eight]
      have e4 : shrU s (8 - rbits) = shr8 s (8 - rbits) := by
        unfold shrU; rw [if_pos (by omega)]
      rw [e1, e2, e3, e4, ih _ _ (by omega)]

/-- Above eight residual bits a septet is dropped and a zero octet emitted. -/
theorem packLoopAny_big (s : UInt8) (u : Bytes) (rbits : Nat) (h : 8 < rbits) (h' : rbits < 0x10000000000000000) :
    packLoopAny (s :: u) 0 rbits = 0 :: packLoopAny u 0 (rbits - 1) := by
  have e1 : u64 ((rbits : Int) - 1) = rbits - 1 := by unfold u64; omega
  have e2 : ¬ u64 (8 - (rbits : Int)) < 8 := by unfold u64; omega
  show (if rbits = 0 then _ else _) = _
  rw [if_neg (by omega), e1]
  unfold shlU shrU
  rw [if_neg (by omega), if_neg e2]
  rfl

theorem packLoopAny_drop (k : Nat) : ∀ (u : Bytes), k ≤ u.length → 8 + k < 0x10000000000000000 →
    packLoopAny u 0 (8 + k) = List.replicate k 0 ++ packLoop (u.drop k) 0 8 := by
  induction k with
  | zero => intro u _ _; simpa using packLoopAny_eq u 0 8 (by omega)
  | succ k ih =>
    intro u hk h
    cases u with
    | nil => simp at hk
    | cons s u =>
      rw [packLoopAny_big s u _ (by omega) h, show 8 + (k + 1) - 1 = 8 + k by omega,
        ih u (by simpa using hk) (by omega)]
      rfl

theorem packLoopAny_zero : ∀ (u : Bytes) (rbits : Nat), 8 + u.length ≤ rbits → rbits < 0x10000000000000000 →
    packLoopAny u 0 rbits = List.replicate (u.length + 1) 0 := by
  intro u
  induction u with
  | nil =>
    intro rbits h _
    have : rbits ≠ 0 := by simp at h; omega
    simp [packLoopAny, this]
  | cons s u ih =>
    intro rbits h h'
    simp only [List.length_cons] at h
    rw [packLoopAny_big s u _ (by omega) h', ih _ (by omega) (by omega)]
    rfl

theorem unpackLoopAny_eq (p : Bytes) : ∀ (r : UInt8) (rbits : Nat), rbits ≤ 6 →
    unpackLoopAny p r rbits = unpackLoop p r rbits := by
  induction p with
  | nil => intro r rbits _; rfl
  | cons o p ih =>
    intro r rbits h
    unfold unpackLoopAny unpackLoop
    have e3 : shlU o rbits = shl8 o rbits := by unfold shlU; rw [if_pos (by omega)]
    simp only [e3]
    by_cases h6 : rbits = 6
    · rw [if_pos h6, if_pos h6, ih _ _ (by omega)]
    · rw [if_neg h6, if_neg h6]
      have e1 : u64 ((rbits : Int) + 1) = rbits + 1 := by unfold u64; omega
      have e2 : u64 (8 - ((rbits + 1 : Nat) : Int)) = 8 - (rbits + 1) := by unfold u64; omega
      rw [e1, e2, ih _ _ (by omega)]
      unfold shrU
      rw [if_pos (by omega)]

/-- With a count that wrapped around, an octet yields a zero septet. -/
theorem unpackLoopAny_big (o : UInt8) (p : Bytes) (rbits : Nat) (h : 8 ≤ rbits) (h' : rbits < 0x10000000000000000) :
    unpackLoopAny (o :: p) 0 rbits = 0 :: unpackLoopAny p 0 (u64 ((rbits : Int) + 1)) := by
  have e2 : ¬ u64 (8 - ((u64 ((rbits : Int) + 1) : Nat) : Int)) < 8 := by unfold u64; omega
  show (if rbits = 6 then _ else _) = _
  rw [if_neg (by omega)]
  unfold shlU shrU
  rw [if_neg (by omega), if_neg e2]
  rfl

theorem unpackLoopAny_drop (k : Nat) : ∀ (p : Bytes), k ≤ p.length → k < 0x1000000000000000 →
    unpackLoopAny p 0 (u64 (-(k : Int))) = List.replicate k 0 ++ unpackLoop (p.drop k) 0 0 := by
  induction k with
  | zero => intro p _ _; simpa [u64] using unpackLoopAny_eq p 0 0 (by omega)
  | succ k ih =>
    intro p hk h
    cases p with
    | nil => simp at hk
    | cons o p =>
      rw [unpackLoopAny_big o p _ (by unfold u64; omega) (by unfold u64; omega)]
      have : u64 (((u64 (-((k + 1 : Nat) : Int)) : Nat) : Int) + 1) = u64 (-(k : Int)) := by
        unfold u64; omega
      rw [this, ih p (by simpa using hk) (by omega)]
      rfl

theorem unpackLoopAny_short : ∀ (p : Bytes) (k : Nat), p.length ≤ k → k < 0x1000000000000000 →
    unpackLoopAny p 0 (u64 (-(k : Int))) = List.replicate p.length 0 := by
  intro p
  induction p with
  | nil => intros; rfl
  | cons o p ih =>
    intro k h h'
    simp only [List.length_cons] at h
    obtain ⟨k, rfl⟩ : ∃ j, k = j + 1 := ⟨k - 1, by omega⟩
    rw [unpackLoopAny_big o p _ (by unfold u64; omega) (by unfold u64; omega)]
    have : u64 (((u64 (-((k + 1 : Nat) : Int)) : Nat) : Int) + 1) = u64 (-(k : Int)) := by
      unfold u64; omega
    rw [this, ih k (by omega) (by omega)]
    rfl

theorem unpackLoopAny_zero : ∀ (p : Bytes) (rbits : Nat), 8 ≤ rbits → rbits + p.length < 0x10000000000000000 →
    unpackLoopAny p 0 rbits = List.replicate p.length 0 := by
  intro p
  induction p with
  | nil => intros; rfl
  | cons o p ih =>
    intro rbits h h'
    simp only [List.length_cons] at h'
    rw [unpackLoopAny_big o p _ h (by omega)]
    have : u64 ((rbits : Int) + 1) = rbits + 1 := by unfold u64; omega
    rw [this, ih _ (by omega) (by omega)]
    rfl

/-! ## octets that are not septets -/

theorem packLoop_len8 (u : Bytes) : ∀ (r : UInt8) (rbits : Nat), rbits ≤ 8 →
    (packLoop u r rbits).length = (rbits + 7 * u.length + 7) / 8 := by
  induction u with
  | nil =>
    intro r rbits h
    unfold packLoop
    split
    · simp only [List.length_cons, List.length_nil]; omega
    · simp only [List.length_nil]; omega
  | cons s u ih =>
    intro r rbits h
    unfold packLoop
    split
    · rw [ih _ _ (by omega)]; simp only [List.length_cons]; omega
    · rw [List.length_cons, ih _ _ (by omega)]; simp only [List.length_cons]; omega

theorem octetBits_get (o : UInt8) (p : Bytes) (j : Nat) :
    (octetBits (o :: p))[j]? = if j < 8 then some (o.toNat.testBit j) else (octetBits p)[j - 8]? := by
  unfold octetBits
  rw [List.flatMap_cons]
  split
  · rename_i h
    rw [List.getElem?_append_left (by simpa using h)]
    simp [bits, h]
  · rename_i h
    rw [List.getElem?_append_right (by simpa using Nat.le_of_not_lt h)]
    simp

theorem testBit_ge (x : UInt8) (j : Nat) (h : x.toNat.testBit j = true) : j < 8 := by
  rcases Nat.lt_or_ge j 8 with h' | h'
  · exact h'
  · have := x.toNat_lt
    rw [Nat.testBit_lt_two_pow (Nat.lt_of_lt_of_le this
      (by simpa using Nat.pow_le_pow_right (n := 2) (by decide) h'))] at h
    cases h

/-- Where bit `j` of the packed form comes from: bit `j - q` of the element that begins at bit `q`, unless that
is its eighth bit and would begin an octet. -/
def From (u : Bytes) (at0 j : Nat) : Prop :=
  ∃ i s, u[i]? = some s ∧ at0 + 7 * i ≤ j ∧ s.toNat.testBit (j - (at0 + 7 * i)) = true ∧
    ¬ (j = at0 + 7 * i + 7 ∧ j % 8 = 0)

theorem from_nil (a j : Nat) : ¬ From [] a j := by rintro ⟨i, s, h, _⟩; simp at h

theorem from_cons (s : UInt8) (u : Bytes) (a j : Nat) : From (s :: u) a j ↔
    (a ≤ j ∧ s.toNat.testBit (j - a) = true ∧ ¬ (j = a + 7 ∧ j % 8 = 0)) ∨ From u (a + 7) j := by
  constructor
  · rintro ⟨i, x, h, h1, h2, h3⟩
    cases i with
    | zero => simp at h; subst h; exact .inl ⟨by omega, by simpa using h2, by simpa using h3⟩
    | succ i =>
      refine .inr ⟨i, x, by simpa using h, by omega, ?_, by omega⟩
      rwa [show a + 7 + 7 * i = a + 7 * (i + 1) by omega]
  · rintro (⟨h1, h2, h3⟩ | ⟨i, x, h, h1, h2, h3⟩)
    · exact ⟨0, s, rfl, by omega, by simpa using h2, by simpa using h3⟩
    · refine ⟨i + 1, x, by simpa using h, by omega, ?_, by omega⟩
      rwa [show a + 7 * (i + 1) = a + 7 + 7 * i by omega]

theorem from_shift (u : Bytes) (a j : Nat) (h : 8 ≤ j) : From u a (j - 8) ↔ From u (a + 8) j := by
  constructor
  · rintro ⟨i, x, h0, h1, h2, h3⟩
    refine ⟨i, x, h0, by omega, ?_, by omega⟩
    rwa [show j - (a + 8 + 7 * i) = j - 8 - (a + 7 * i) by omega]
  · rintro ⟨i, x, h0, h1, h2, h3⟩
    refine ⟨i, x, h0, by omega, ?_, by omega⟩
    rwa [show j - 8 - (a + 7 * i) = j - (a + 8 + 7 * i) by omega]

theorem from_below (u : Bytes) (a j : Nat) (h : j < a) : ¬ From u a j := by
  rintro ⟨i, x, _, h1, _⟩; omega

theorem packLoop_from (u : Bytes) : ∀ (r : UInt8) (rbits : Nat), rbits ≤ 8 → ∀ j,
    (octetBits (packLoop u r rbits))[j]? = some true ↔
      (rbits ≠ 0 ∧ r.toNat.testBit j = true) ∨ From u rbits j := by
  induction u with
  | nil =>
    intro r rbits h j
    unfold packLoop
    have := from_nil rbits j
    by_cases h0 : rbits = 0
    · simp [h0, octetBits, from_nil]
    · simp only [h0, ne_eq, not_false_eq_true, if_true, octetBits_get, this, or_false, true_and]
      split
      · simp
      · rename_i h8
        constructor
        · intro h; simp [octetBits] at h
        · intro h; exact absurd (testBit_ge r j h) h8
  | cons s u ih =>
    intro r rbits h j
    rw [from_cons]
    unfold packLoop
    by_cases h0 : rbits = 0
    · subst h0
      rw [if_pos rfl, ih s 7 (by omega) j]
      constructor
      · rintro (⟨_, h⟩ | h)
        · exact .inr (.inl ⟨by omega, by simpa using h, by omega⟩)
        · exact .inr (.inr (by simpa using h))
      · rintro (⟨h, _⟩ | ⟨_, h, _⟩ | h)
        · exact absurd rfl h
        · exact .inl ⟨by omega, by simpa using h⟩
        · exact .inr (by simpa using h)
    · rw [if_neg h0, octetBits_get]
      by_cases hj : j < 8
      · rw [if_pos hj]
        have e : ((r ||| shl8 s rbits) &&& 0xff).toNat = (r.toNat ||| s.toNat <<< rbits) % 2 ^ 8 := by
          simp only [UInt8.toNat_and, UInt8.toNat_or, toNat_shl8]
          have h255 : (0xff : UInt8).toNat = 2 ^ 8 - 1 := rfl
          rw [h255, Nat.and_two_pow_sub_one_eq_mod, Nat.or_mod_two_pow, Nat.or_mod_two_pow, Nat.mod_mod]
        rw [e, Nat.testBit_mod_two_pow, Nat.testBit_or, Nat.testBit_shiftLeft]
        have := from_below u (rbits + 7) j (by omega)
        simp only [hj, decide_true, Bool.true_and, Option.some.injEq, Bool.or_eq_true, Bool.and_eq_true,
          decide_eq_true_eq, ge_iff_le, this, or_false, h0, ne_eq, not_false_eq_true, true_and]
        constructor
        · rintro (h | ⟨h1, h2⟩)
          · exact .inl h
          · exact .inr ⟨h1, h2, by omega⟩
        · rintro (h | ⟨h1, h2, _⟩)
          · exact .inl h
          · exact .inr ⟨h1, h2⟩
      · rw [if_neg hj, ih _ _ (by omega), from_shift u _ j (by omega),
          show rbits - 1 + 8 = rbits + 7 by omega, toNat_shr8, Nat.testBit_shiftRight,
          show 8 - rbits + (j - 8) = j - rbits by omega]
        constructor
        · rintro (⟨h1, h2⟩ | h)
          · exact .inr (.inl ⟨by omega, h2, by omega⟩)
          · exact .inr (.inr h)
        · rintro (⟨_, h⟩ | ⟨h1, h2, h3⟩ | h)
          · exact absurd (testBit_ge r j h) hj
          · have := testBit_ge s _ h2
            exact .inl ⟨by omega, h2⟩
          · exact .inr h

end Verif.Proofs
