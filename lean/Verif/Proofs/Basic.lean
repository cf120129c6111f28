import Verif.Model.Prelude

/-! General lemmas about the Go run-time conventions. -/

namespace Verif.Proofs
open Verif.Model

theorem forall_u8 {P : UInt8 → Prop} (h : ∀ n, n < 256 → P (UInt8.ofNat n)) (o : UInt8) : P o := by
  have := h o.toNat o.toNat_lt
  rwa [UInt8.ofNat_toNat] at this

theorem exists_concat {α : Type} (l : List α) (h : l ≠ []) : ∃ a x, l = a ++ [x] :=
  ⟨l.dropLast, l.getLast h, (List.dropLast_concat_getLast h).symm⟩

theorem idx_append_right {α : Type} (a : List α) (x : α) : idx (a ++ [x]) (a.length : Nat) = .ok x := by
  simp [idx]

theorem idx_len_sub_one {α : Type} (a : List α) (x : α) :
    idx (a ++ [x]) (((a ++ [x]).length : Nat) - 1 : Int) = .ok x := by
  simp only [List.length_append, List.length_singleton]
  have : ((a.length + 1 : Nat) : Int) - 1 = (a.length : Nat) := by omega
  rw [this]; exact idx_append_right _ _

theorem idx_len_sub_two {α : Type} (a : List α) (x : α) (h : a.length ≥ 1) :
    ∃ y, idx (a ++ [x]) (((a ++ [x]).length : Nat) - 2 : Int) = .ok y := by
  simp only [List.length_append, List.length_singleton]
  have h2 : ((a.length + 1 : Nat) : Int) - 2 = (a.length - 1 : Nat) := by omega
  rw [h2]
  refine ⟨(a ++ [x])[a.length - 1]'(by simp; omega), ?_⟩
  simp only [idx, Int.toNat_natCast]
  rw [if_pos (by omega), List.getElem?_eq_getElem (by simp; omega)]

/-- A property of all bytes can be checked on the 256 of them. -/
theorem forall_u8_dec {P : UInt8 → Prop} [DecidablePred P]
    (h : (List.range 256).all (fun n => decide (P (UInt8.ofNat n))) = true) (o : UInt8) : P o := by
  refine forall_u8 (fun n hn => ?_) o
  have := List.all_eq_true.mp h n (List.mem_range.mpr hn)
  simpa using this

theorem byteOf_natCast (n : Nat) : byteOf (n : Int) = UInt8.ofNat n := by
  unfold byteOf
  apply UInt8.toNat_inj.mp
  have : ((n : Int) % 256).toNat = n % 256 := by omega
  rw [this]; simp

theorem toNat_byteOf (i : Int) : (byteOf i).toNat = (i % 256).toNat := by
  unfold byteOf
  have : (i % 256).toNat < 256 := by omega
  simp only [UInt8.toNat_ofNat']
  omega

@[simp] theorem ok_bind {ε α β : Type} (a : α) (f : α → Except ε β) : (Except.ok a >>= f) = f a := rfl
@[simp] theorem error_bind {ε α β : Type} (e : ε) (f : α → Except ε β) :
    ((Except.error e : Except ε α) >>= f) = .error e := rfl
@[simp] theorem pure_ok {ε α : Type} (a : α) : (pure a : Except ε α) = .ok a := rfl

theorem bind_eq_ok {ε α β : Type} {m : Except ε α} {f : α → Except ε β} {b : β} :
    (m >>= f) = .ok b ↔ ∃ a, m = .ok a ∧ f a = .ok b := by
  cases m with
  | ok a => simp
  | error e => simp

theorem idx_getElem {α : Type} (l : List α) (i : Nat) (h : i < l.length) : idx l (i : Int) = .ok l[i] := by
  simp [idx, h]

theorem idx_at {α : Type} (pre : List α) (x : α) (post : List α) (i : Int) (h : i = pre.length) :
    idx (pre ++ x :: post) i = .ok x := by
  subst h; simp [idx]

theorem slice_at {α : Type} (pre mid post : List α) (a b : Int) (ha : a = pre.length)
    (hb : b = (pre.length + mid.length : Nat)) : slice (pre ++ mid ++ post) a b = .ok mid := by
  subst ha hb
  unfold slice
  rw [if_pos (by simp; omega)]
  congr 1
  rw [Int.toNat_natCast, Int.toNat_natCast, List.append_assoc, ← List.append_assoc, List.take_left' (by simp),
    List.drop_left' rfl]

theorem slice_end {α : Type} (pre post : List α) (a b : Int) (ha : a = pre.length)
    (hb : b = (pre ++ post).length) : slice (pre ++ post) a b = .ok post := by
  have := slice_at pre post [] a b ha (by rw [hb]; simp)
  simpa using this

@[simp] theorem wrapD_ok {α : Type} (f : String) (o : Nat) (a : α) : wrapD f o (.ok a) = .ok a := rfl
@[simp] theorem wrapE_ok {α : Type} (f : String) (a : α) : wrapE f (.ok a) = .ok a := rfl

theorem wrapD_eq_ok {α : Type} {f : String} {o : Nat} {m : M α} {a : α} : wrapD f o m = .ok a ↔ m = .ok a := by
  unfold wrapD; split
  · rfl
  · simp [fail]
  · simp [panicM]

theorem wrapE_eq_ok {α : Type} {f : String} {m : M α} {a : α} : wrapE f m = .ok a ↔ m = .ok a := by
  unfold wrapE; split
  · rfl
  · simp [fail]
  · simp [panicM]

theorem idx_eq_ok {α : Type} {l : List α} {i : Nat} {x : α} (h : idx l (i : Int) = .ok x) :
    l[i]? = some x := by
  unfold idx at h
  rw [if_pos (by omega), Int.toNat_natCast] at h
  split at h
  · rename_i y hy; cases h; exact hy
  · cases h

theorem idx_lt {α : Type} {l : List α} {i : Nat} (h : i < l.length) : ∃ x, idx l (i : Int) = .ok x :=
  ⟨_, idx_getElem l i h⟩

theorem slice_eq_ok {α : Type} {l r : List α} {a b : Nat} (h : slice l (a : Int) (b : Int) = .ok r) :
    a ≤ b ∧ b ≤ l.length ∧ r = (l.take b).drop a := by
  unfold slice at h
  split at h
  · cases h; simp only [Int.toNat_natCast, and_true]; omega
  · cases h

theorem slice_ok {α : Type} (l : List α) (a b : Nat) (h1 : a ≤ b) (h2 : b ≤ l.length) :
    slice l (a : Int) (b : Int) = .ok ((l.take b).drop a) := by
  unfold slice; rw [if_pos (by omega)]; rfl

theorem idx_zero_cons {α : Type} (x : α) (l : List α) : idx (x :: l) 0 = .ok x := rfl
theorem idx_one_cons {α : Type} (x y : α) (l : List α) : idx (x :: y :: l) 1 = .ok y := rfl

end Verif.Proofs
