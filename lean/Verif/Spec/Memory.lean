import Verif.Model.Alias

/-! What slices share. -/

namespace Verif.Spec
open Verif.Model.Alias

/-- Position `p` of array `a` is an element of the slice. -/
def Used (s : Slice) (a p : Nat) : Prop := a = s.arr ∧ s.off ≤ p ∧ p < s.off + s.len

/-- Position `p` of array `a` is in the unused capacity of the slice. -/
def Spare (s : Slice) (a p : Nat) : Prop := a = s.arr ∧ s.off + s.len ≤ p ∧ p < s.off + s.cap

/-- Neither slice has unused capacity that belongs to the other. -/
def Separate (s t : Slice) : Prop :=
  ∀ a p, (Spare s a p → ¬ Used t a p ∧ ¬ Spare t a p) ∧ (Spare t a p → ¬ Used s a p)

/-- The slice is one of an allocated array. -/
def Allocated {α : Type} (m : Mem α) (s : Slice) : Prop := s.arr < m.next ∧ s.len ≤ s.cap

end Verif.Spec
