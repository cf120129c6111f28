import Verif.Proofs.Segment2

/-! When chunking does not return. -/

namespace Verif.Proofs
open Verif.Model Verif.Spec

theorem idx_neg {α : Type} (l : List α) (i : Int) (h : i < 0) : idx l i = panicM .index := by
  unfold idx; rw [if_neg (by omega)]

theorem slice_bad {α : Type} (l : List α) (a b : Int) (h : ¬ (0 ≤ a ∧ a ≤ b ∧ b ≤ l.length)) : slice l a b = panicM .slice := by
  unfold slice; rw [if_neg h]

@[simp] theorem panic_bind {α β : Type} (k : PanicKind) (f : α → M β) : (panicM k >>= f) = panicM k := rfl

theorem chunk_nonpos (msg : Bytes) (hne : msg ≠ []) (a : Alphabet) (bs : Int) (h : bs ≤ 0) :
    ∃ k, chunk msg a bs = panicM k := by
  have hl : ¬ msg.length = 0 := by simpa using hne
  have hc : ∀ (b : Int) (m : M (List Bytes)), b ≤ 0 → (b < 0 → ∃ k, m = panicM k) →
      ∃ k, (checkCount msg b >>= fun _ => m) = panicM k := by
    intro b m hb hm
    unfold checkCount
    split
    · exact ⟨_, rfl⟩
    · split
      · exact ⟨_, rfl⟩
      · obtain ⟨k, hk⟩ := hm (by omega)
        exact ⟨k, hk⟩
  have h7 : ∃ k, chunk7Bit msg bs = panicM k := by
    unfold chunk7Bit
    rw [if_neg hl]
    refine hc bs _ h (fun hb => ⟨.index, ?_⟩)
    unfold chunk7Loop
    simp only
    rw [if_pos (by omega), idx_neg _ _ (by omega)]
    rfl
  cases a with
  | a7Bit => exact h7
  | reserved => exact h7
  | a8Bit =>
    show ∃ k, chunk8Bit msg bs = panicM k
    unfold chunk8Bit
    rw [if_neg hl]
    refine hc bs _ h (fun hb => ⟨.slice, ?_⟩)
    unfold chunk8Loop
    simp only
    rw [if_pos (by omega), slice_bad _ _ _ (by omega)]
    rfl
  | ucs2 =>
    show ∃ k, chunkUCS2 msg bs = panicM k
    unfold chunkUCS2
    rw [if_neg hl]
    refine hc (bs - bs % 2) _ (by omega) (fun hb => ⟨.slice, ?_⟩)
    unfold chunkUCS2Loop
    simp only
    rw [if_pos (by omega), slice_bad _ _ _ (by omega)]
    rfl

theorem chunk7_one (msg : Bytes) : ∀ fuel b, msg.length - b < fuel → b ≤ msg.length → (b = 0 ∨ msg[b - 1]? ≠ some esc) →
    ((∀ i, b ≤ i → i + 1 < msg.length → msg[i]? ≠ some esc) → ∃ cs, chunk7Loop msg 1 fuel (b : Nat) = .ok cs) ∧
    (¬ (∀ i, b ≤ i → i + 1 < msg.length → msg[i]? ≠ some esc) → ∃ k, chunk7Loop msg 1 fuel (b : Nat) = panicM k) := by
  intro fuel
  induction fuel with
  | zero => intro b hb; omega
  | succ n ih =>
    intro b hb hle hprev
    unfold chunk7Loop
    simp only
    by_cases hlt : b + 1 < msg.length
    · rw [if_pos (by omega), idx_int msg _ b (by omega) (by omega)]
      simp only [ok_bind]
      have hg : msg[b]? = some msg[b] := List.getElem?_eq_getElem (by omega)
      by_cases h : msg[b] = esc
      · refine ⟨fun hall => absurd (by rw [hg, h]) (hall b (by omega) hlt), fun _ => ?_⟩
        rw [if_pos h]
        by_cases h0 : b = 0
        · subst h0
          rw [idx_neg _ _ (by decide)]
          exact ⟨_, rfl⟩
        · rw [idx_int msg _ (b - 1) (by omega) (by omega)]
          have hp : ¬ msg[b - 1] = esc := by
            rcases hprev with h1 | h1
            · omega
            · rw [List.getElem?_eq_getElem (by omega)] at h1
              simpa using h1
          simp only [ok_bind]
          rw [if_pos hp]
          simp only [pure, Except.pure, ok_bind]
          have e : (b : Int) + 1 - 1 = (b : Nat) := by omega
          rw [e, slice_ok _ _ _ (by omega) (by omega)]
          simp only [ok_bind, if_true]
          exact ⟨_, rfl⟩
      · rw [if_neg h]
        simp only [ok_bind]
        have e : (b : Int) + 1 = ((b + 1 : Nat) : Int) := by omega
        rw [e, slice_ok _ _ _ (by omega) (by omega)]
        simp only [ok_bind]
        rw [if_neg (by omega)]
        obtain ⟨i1, i2⟩ := ih (b + 1) (by omega) (by omega) (.inr (by
          simp only [Nat.add_sub_cancel]; rw [hg]; simpa using h))
        constructor
        · intro hall
          obtain ⟨cs, hcs⟩ := i1 (fun i hi hi' => hall i (by omega) hi')
          rw [hcs]; exact ⟨_, rfl⟩
        · intro hall
          obtain ⟨k, hk⟩ := i2 (fun h' => hall (fun i hi hi' => by
            by_cases hib : i = b
            · subst hib; rw [hg]; simpa using h
            · exact h' i (by omega) hi'))
          rw [hk]; exact ⟨_, rfl⟩
    · rw [if_neg (by omega), slice_ok _ _ _ (by omega) (by omega)]
      exact ⟨fun _ => ⟨_, rfl⟩, fun h => absurd (fun i hi hi' => by omega) h⟩

theorem chunkU_two (msg : Bytes) : ∀ fuel b, msg.length - b < fuel → b ≤ msg.length → b % 2 = 0 →
    ((∀ x, b < x → x % 2 = 0 → x < msg.length → ¬ highBefore msg x) → ∃ cs, chunkUCS2Loop msg 2 fuel (b : Nat) = .ok cs) ∧
    (¬ (∀ x, b < x → x % 2 = 0 → x < msg.length → ¬ highBefore msg x) → ∃ k, chunkUCS2Loop msg 2 fuel (b : Nat) = panicM k) := by
  intro fuel
  induction fuel with
  | zero => intro b hb; omega
  | succ n ih =>
    intro b hb hle hev
    unfold chunkUCS2Loop
    simp only
    by_cases hlt : b + 2 < msg.length
    · rw [if_pos (by omega)]
      have hu := unit_at msg 2 b (by omega) hlt
      rw [bind_eq_ok] at hu
      obtain ⟨s, hs1, hs2⟩ := hu
      have hs1' : slice msg ((b : Int) + 2 - 2) ((b : Int) + 2) = .ok s := hs1
      rw [hs1']
      simp only [ok_bind]
      rw [hs2]
      simp only [ok_bind]
      have hiff := highBefore_iff msg (b + 2) (by omega) (by omega)
      by_cases h : highBefore msg (b + 2)
      · refine ⟨fun hall => absurd h (hall (b + 2) (by omega) (by omega) hlt), fun _ => ?_⟩
        rw [if_pos (hiff.mp h)]
        have e : (b : Int) + 2 - 2 = (b : Nat) := by omega
        rw [e, slice_ok _ _ _ (by omega) (by omega)]
        simp only [ok_bind, if_true]
        exact ⟨_, rfl⟩
      · rw [if_neg (fun h' => h (hiff.mpr h'))]
        have e : (b : Int) + 2 = ((b + 2 : Nat) : Int) := by omega
        rw [e, slice_ok _ _ _ (by omega) (by omega)]
        simp only [ok_bind]
        rw [if_neg (by omega)]
        obtain ⟨i1, i2⟩ := ih (b + 2) (by omega) (by omega) (by omega)
        constructor
        · intro hall
          obtain ⟨cs, hcs⟩ := i1 (fun x hx he hx' => hall x (by omega) he hx')
          rw [hcs]; exact ⟨_, rfl⟩
        · intro hall
          obtain ⟨k, hk⟩ := i2 (fun h' => hall (fun x hx he hx' => by
            by_cases hib : x = b + 2
            · subst hib; exact h
            · exact h' x (by omega) he hx'))
          rw [hk]; exact ⟨_, rfl⟩
    · rw [if_neg (by omega), slice_ok _ _ _ (by omega) (by omega)]
      exact ⟨fun _ => ⟨_, rfl⟩, fun h => absurd (fun x hx he hx' => by omega) h⟩

end Verif.Proofs
