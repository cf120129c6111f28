import Verif.Model.Gsm7

/-! The character set tables, checked entry by entry. -/

namespace Verif.Proofs
open Verif.Model Verif.Model.Unicode

theorem lookup_mem {α β : Type} [BEq α] [LawfulBEq α] {l : List (α × β)} {a : α} {b : β}
    (h : l.lookup a = some b) : (a, b) ∈ l := by
  induction l with
  | nil => cases h
  | cons x l ih =>
    obtain ⟨k, v⟩ := x
    rw [List.lookup_cons] at h
    by_cases hk : a = k
    · subst hk; simp at h; simp [h]
    · have : (a == k) = false := by simpa using hk
      rw [this] at h
      exact List.mem_cons_of_mem _ (ih h)

/-- The encoder table `e` inverts the decoder table `d` on septets, choosing the least septet; the escape
septet stands for U+001B and nothing else does; no table maps to U+FFFD. -/
def tablesOk (e : Charset.Encoder) (d : Charset.Decoder) : Bool :=
  e.all (fun rg => (d.lookup rg.2 == some rg.1) && decide (rg.2.toNat < 128)) &&
  d.all (fun gr => (match e.lookup gr.2 with
    | some g => decide (g ≤ gr.1)
    | none => false) && isScalar gr.2 && (gr.2 != 0xFFFD) && ((gr.1 == Gsm7.esc) == (gr.2 == 0x1b)) &&
      (d.lookup gr.1 == some gr.2))

structure TablesOk (e : Charset.Encoder) (d : Charset.Decoder) : Prop where
  sect : ∀ r g, e.lookup r = some g → d.lookup g = some r ∧ g.toNat < 128
  total : ∀ g r, d.lookup g = some r → ∃ g', e.lookup r = some g' ∧ g' ≤ g
  scalar : ∀ g r, d.lookup g = some r → isScalar r = true ∧ r ≠ 0xFFFD
  esc : ∀ g r, d.lookup g = some r → (g = Gsm7.esc ↔ r = 0x1b)
  mem : ∀ g r, (g, r) ∈ d → d.lookup g = some r

theorem tablesOk_iff {e : Charset.Encoder} {d : Charset.Decoder} (h : tablesOk e d = true) : TablesOk e d := by
  unfold tablesOk at h
  rw [Bool.and_eq_true, List.all_eq_true, List.all_eq_true] at h
  obtain ⟨h1, h2⟩ := h
  refine ⟨?_, ?_, ?_, ?_, ?_⟩
  · intro r g hl
    have := h1 _ (lookup_mem hl)
    simpa using this
  · intro g r hl
    have := h2 _ (lookup_mem hl)
    simp only [Bool.and_eq_true] at this
    have := this.1.1.1.1
    split at this
    · rename_i g' hg; exact ⟨g', hg, by simpa using this⟩
    · cases this
  · intro g r hl
    have := h2 _ (lookup_mem hl)
    simp only [Bool.and_eq_true] at this
    exact ⟨this.1.1.1.2, by simpa using this.1.1.2⟩
  · intro g r hl
    have := h2 _ (lookup_mem hl)
    simp only [Bool.and_eq_true] at this
    have := this.1.2
    rw [beq_iff_eq] at this
    constructor
    · rintro rfl; simpa using this
    · rintro rfl; simpa using this
  · intro g r hm
    have := h2 _ hm
    simp only [Bool.and_eq_true] at this
    simpa using this.2

theorem nli_cases (nli : Int) : (∃ k : Nat, k < 14 ∧ nli = k) ∨ (nli < 0 ∨ 13 < nli) := by
  by_cases h : nli < 0 ∨ 13 < nli
  · exact .inr h
  · exact .inl ⟨nli.toNat, by omega, by omega⟩

theorem newDecoder_unknown (nli : Int) (h : nli < 0 ∨ 13 < nli) :
    Charset.NewDecoder nli = Charset.DefaultDecoder ∧ Charset.NewEncoder nli = Charset.DefaultEncoder ∧
    Charset.NewExtDecoder nli = Charset.DefaultExtDecoder ∧
    Charset.NewExtEncoder nli = Charset.DefaultExtEncoder := by
  refine ⟨?_, ?_, ?_, ?_⟩
  · unfold Charset.NewDecoder; split <;> first | omega | rfl
  · unfold Charset.NewEncoder; split <;> first | omega | rfl
  · unfold Charset.NewExtDecoder; split <;> first | omega | rfl
  · unfold Charset.NewExtEncoder; split <;> first | omega | rfl

/-! One table after the other, to keep the memory needed small. -/

set_option Elab.async false

theorem tables_0 : tablesOk (Charset.NewEncoder 0) (Charset.NewDecoder 0) = true ∧
    tablesOk (Charset.NewExtEncoder 0) (Charset.NewExtDecoder 0) = true := by decide +kernel

theorem tables_1 : tablesOk (Charset.NewEncoder 1) (Charset.NewDecoder 1) = true ∧
    tablesOk (Charset.NewExtEncoder 1) (Charset.NewExtDecoder 1) = true := by decide +kernel

theorem tables_2 : tablesOk (Charset.NewEncoder 2) (Charset.NewDecoder 2) = true ∧
    tablesOk (Charset.NewExtEncoder 2) (Charset.NewExtDecoder 2) = true := by decide +kernel

theorem tables_3 : tablesOk (Charset.NewEncoder 3) (Charset.NewDecoder 3) = true ∧
    tablesOk (Charset.NewExtEncoder 3) (Charset.NewExtDecoder 3) = true := by decide +kernel

theorem tables_4 : tablesOk (Charset.NewEncoder 4) (Charset.NewDecoder 4) = true ∧
    tablesOk (Charset.NewExtEncoder 4) (Charset.NewExtDecoder 4) = true := by decide +kernel

theorem tables_5 : tablesOk (Charset.NewEncoder 5) (Charset.NewDecoder 5) = true ∧
    tablesOk (Charset.NewExtEncoder 5) (Charset.NewExtDecoder 5) = true := by decide +kernel

theorem tables_6 : tablesOk (Charset.NewEncoder 6) (Charset.NewDecoder 6) = true ∧
    tablesOk (Charset.NewExtEncoder 6) (Charset.NewExtDecoder 6) = true := by decide +kernel

theorem tables_7 : tablesOk (Charset.NewEncoder 7) (Charset.NewDecoder 7) = true ∧
    tablesOk (Charset.NewExtEncoder 7) (Charset.NewExtDecoder 7) = true := by decide +kernel

theorem tables_8 : tablesOk (Charset.NewEncoder 8) (Charset.NewDecoder 8) = true ∧
    tablesOk (Charset.NewExtEncoder 8) (Charset.NewExtDecoder 8) = true := by decide +kernel

theorem tables_9 : tablesOk (Charset.NewEncoder 9) (Charset.NewDecoder 9) = true ∧
    tablesOk (Charset.NewExtEncoder 9) (Charset.NewExtDecoder 9) = true := by decide +kernel

theorem tables_10 : tablesOk (Charset.NewEncoder 10) (Charset.NewDecoder 10) = true ∧
    tablesOk (Charset.NewExtEncoder 10) (Charset.NewExtDecoder 10) = true := by decide +kernel

theorem tables_11 : tablesOk (Charset.NewEncoder 11) (Charset.NewDecoder 11) = true ∧
    tablesOk (Charset.NewExtEncoder 11) (Charset.NewExtDecoder 11) = true := by decide +kernel

theorem tables_12 : tablesOk (Charset.NewEncoder 12) (Charset.NewDecoder 12) = true ∧
    tablesOk (Charset.NewExtEncoder 12) (Charset.NewExtDecoder 12) = true := by decide +kernel

theorem tables_13 : tablesOk (Charset.NewEncoder 13) (Charset.NewDecoder 13) = true ∧
    tablesOk (Charset.NewExtEncoder 13) (Charset.NewExtDecoder 13) = true := by decide +kernel

theorem all_tablesOk : ∀ k : Nat, k < 14 →
    tablesOk (Charset.NewEncoder k) (Charset.NewDecoder k) = true ∧
    tablesOk (Charset.NewExtEncoder k) (Charset.NewExtDecoder k) = true
  | 0, _ => tables_0
  | 1, _ => tables_1
  | 2, _ => tables_2
  | 3, _ => tables_3
  | 4, _ => tables_4
  | 5, _ => tables_5
  | 6, _ => tables_6
  | 7, _ => tables_7
  | 8, _ => tables_8
  | 9, _ => tables_9
  | 10, _ => tables_10
  | 11, _ => tables_11
  | 12, _ => tables_12
  | 13, _ => tables_13
  | k + 14, h => absurd h (by omega)

theorem locking_ok (nli : Int) : TablesOk (Charset.NewEncoder nli) (Charset.NewDecoder nli) := by
  rcases nli_cases nli with ⟨k, hk, rfl⟩ | h
  · exact tablesOk_iff (all_tablesOk k hk).1
  · obtain ⟨h1, h2, _, _⟩ := newDecoder_unknown nli h
    rw [h1, h2]
    exact tablesOk_iff (all_tablesOk 0 (by decide)).1

theorem shift_ok (nli : Int) : TablesOk (Charset.NewExtEncoder nli) (Charset.NewExtDecoder nli) := by
  rcases nli_cases nli with ⟨k, hk, rfl⟩ | h
  · exact tablesOk_iff (all_tablesOk k hk).2
  · obtain ⟨_, _, h1, h2⟩ := newDecoder_unknown nli h
    rw [h1, h2]
    exact tablesOk_iff (all_tablesOk 0 (by decide)).2

end Verif.Proofs
