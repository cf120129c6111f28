import Verif.Spec.Collect
import Verif.Proofs.Basic

/-! The key under which a reassembly is stored identifies the message. -/

namespace Verif.Proofs.Key
open Verif.Model Verif.Spec Verif.Proofs

/-- The number written by decimal digits. -/
def value (ds : Bytes) : Nat := ds.foldl (fun a d => 10 * a + (d.toNat - 48)) 0

theorem value_append (a : Bytes) (d : UInt8) : value (a ++ [d]) = 10 * value a + (d.toNat - 48) := by
  simp [value]

theorem digit_val (n : Nat) (h : n < 10) : (UInt8.ofNat (48 + n)).toNat = 48 + n := by
  simp; omega

theorem decimalAux_spec (fuel : Nat) : ∀ n, n ≤ fuel → value (decimalAux fuel n) = n ∧ (0x3a : UInt8) ∉ decimalAux fuel n := by
  have hd : ∀ n, n < 10 → (0x3a : UInt8) ≠ UInt8.ofNat (48 + n) := by
    intro n hn h
    have := congrArg UInt8.toNat h
    rw [digit_val n hn] at this
    simp at this; omega
  induction fuel with
  | zero =>
    intro n hn
    have : n = 0 := by omega
    subst this
    decide
  | succ fuel ih =>
    intro n hn
    unfold decimalAux
    by_cases h : n < 10
    · rw [if_pos h]
      refine ⟨?_, ?_⟩
      · show 10 * 0 + ((UInt8.ofNat (48 + n)).toNat - 48) = n
        rw [digit_val n h]; omega
      · simpa using hd n h
    · rw [if_neg h]
      obtain ⟨h1, h2⟩ := ih (n / 10) (by omega)
      refine ⟨?_, ?_⟩
      · rw [value_append, h1, digit_val _ (by omega)]; omega
      · rw [List.mem_append, List.mem_singleton, not_or]
        exact ⟨h2, hd _ (by omega)⟩

theorem decimal_inj (m n : Nat) (h : decimal m = decimal n) : m = n := by
  have h1 := (decimalAux_spec m m (Nat.le_refl _)).1
  have h2 := (decimalAux_spec n n (Nat.le_refl _)).1
  unfold decimal at h
  rw [h] at h1
  omega

theorem decimal_colon (n : Nat) : (0x3a : UInt8) ∉ decimal n := (decimalAux_spec n n (Nat.le_refl _)).2

theorem split_colon : ∀ (a c b d : Bytes), (0x3a : UInt8) ∉ a → (0x3a : UInt8) ∉ c →
    a ++ 0x3a :: b = c ++ 0x3a :: d → a = c ∧ b = d := by
  intro a
  induction a with
  | nil =>
    intro c b d _ hc h
    cases c with
    | nil => simpa using h
    | cons x c =>
      simp only [List.nil_append, List.cons_append, List.cons.injEq] at h
      rw [← h.1] at hc; simp at hc
  | cons x a ih =>
    intro c b d ha hc h
    cases c with
    | nil =>
      simp only [List.nil_append, List.cons_append, List.cons.injEq] at h
      rw [h.1] at ha; simp at ha
    | cons y c =>
      simp only [List.cons_append, List.cons.injEq] at h
      obtain ⟨rfl, h⟩ := h
      obtain ⟨h1, h2⟩ := ih c b d (fun hh => ha (by simp [hh])) (fun hh => hc (by simp [hh])) h
      exact ⟨by rw [h1], h2⟩

theorem split_colon_right (a c b d : Bytes) (hb : (0x3a : UInt8) ∉ b) (hd : (0x3a : UInt8) ∉ d)
    (h : a ++ 0x3a :: b = c ++ 0x3a :: d) : a = c ∧ b = d := by
  have h' := congrArg List.reverse h
  simp only [List.reverse_append, List.reverse_cons, List.append_assoc, List.singleton_append] at h'
  obtain ⟨h1, h2⟩ := split_colon b.reverse d.reverse a.reverse c.reverse (by simpa using hb) (by simpa using hd) h'
  exact ⟨List.reverse_inj.mp h2, List.reverse_inj.mp h1⟩

theorem hexDig_inj : ∀ a < 16, ∀ b < 16, hexDig a = hexDig b → a = b := by decide +kernel

theorem hex02_inj (a b : UInt8) (h : hex02 a = hex02 b) : a = b := by
  have ha := a.toNat_lt
  have hb := b.toNat_lt
  simp only [hex02, List.cons.injEq, and_true] at h
  have h1 := hexDig_inj _ (by omega) _ (by omega) h.1
  have h2 := hexDig_inj _ (by omega) _ (by omega) h.2
  apply UInt8.toNat_inj.mp
  omega

theorem formatKey_inj (st st' : UInt8) (a a' : Address) (r r' n n' : Nat)
    (h : formatKey st a r n = formatKey st' a' r' n') : st = st' ∧ a = a' ∧ r = r' ∧ n = n' := by
  unfold formatKey at h
  simp only [List.append_assoc, List.singleton_append] at h
  obtain ⟨h1, h⟩ := split_colon _ _ _ _ (decimal_colon _) (decimal_colon _) h
  obtain ⟨h2, h⟩ := List.append_inj h rfl
  simp only [List.cons_append, List.cons.injEq, true_and] at h
  have e : ∀ (x : Bytes) (r n : Nat), x ++ 0x3a :: (decimal r ++ 0x3a :: decimal n) = (x ++ 0x3a :: decimal r) ++ 0x3a :: decimal n := by
    intros; simp
  rw [e, e] at h
  obtain ⟨h, h3⟩ := split_colon_right _ _ _ _ (decimal_colon _) (decimal_colon _) h
  obtain ⟨h4, h5⟩ := split_colon_right _ _ _ _ (decimal_colon _) (decimal_colon _) h
  refine ⟨?_, ?_, decimal_inj _ _ h5, decimal_inj _ _ h3⟩
  · exact UInt8.toNat_inj.mp (decimal_inj _ _ h1)
  · obtain ⟨t, x⟩ := a
    obtain ⟨t', x'⟩ := a'
    simp only at h2 h4
    rw [hex02_inj _ _ h2, h4]

theorem pduKey_supported (pdu : TPDU) (n r : Nat) (h : Supported pdu) :
    pduKey pdu n r = (formatKey pdu.SmsType (peer pdu) r n, none) := by
  unfold pduKey peer
  rcases h with h | h
  · rw [h]; rfl
  · rw [h]; rfl

theorem pduKey_none (pdu : TPDU) (n r : Nat) (k : Bytes) (h : pduKey pdu n r = (k, none)) : Supported pdu := by
  unfold pduKey at h
  simp only at h
  split at h
  · rename_i h1; exact .inl h1
  · split at h
    · rename_i h1; exact .inr h1
    · cases h

end Verif.Proofs.Key
