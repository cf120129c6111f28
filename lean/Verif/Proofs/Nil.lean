import Verif.Model.Nil
import Verif.Model.Cmd
import Verif.Proofs.CollInv

/-! Lemmas for C126. -/

namespace Verif.Proofs.Nil

open Verif.Model Verif.Proofs

theorem ok_bind {α β : Type} (a : α) (f : α → M β) : ((Except.ok a : M α) >>= f) = f a := rfl

theorem err_bind {α β : Type} (e : Fault) (f : α → M β) : ((Except.error e : M α) >>= f) = .error e := rfl

/-- Without nil pointers the loop is the loop on TPDUs. -/
theorem decodeLoop_map (opts : List CharsetOpt) (l : List TPDU) (dg : Bytes) :
    Model.Sms.decodePtrLoop opts (l.map some) dg = Model.Sms.decodeLoop opts l dg := by
  induction l generalizing dg with
  | nil => rfl
  | cons s ss ih =>
    simp only [List.map_cons, Model.Sms.decodePtrLoop, Model.Sms.decodeLoop, ih]
    generalize DecodeUserData _ _ _ _ = d
    cases d.err with
    | none => rfl
    | some e => cases e <;> rfl

/-- What becomes of `Decode` when it comes to a nil pointer. -/
def thenNil : M Bytes → M Bytes
  | .ok _ => panicM .nil
  | .error (.err (.ucs2Dangling _)) => panicM .nil
  | .error e => .error e

theorem thenNil_bind (m : M Bytes) (t : Bytes) : (thenNil m >>= fun rest => (return t ++ rest : M Bytes)) =
    thenNil (m >>= fun rest => (return t ++ rest : M Bytes)) := by
  cases m with
  | ok v => rfl
  | error e =>
    rw [err_bind]
    cases e with
    | panic k => rfl
    | err e => cases e <;> rfl

theorem decodeLoop_nil (opts : List CharsetOpt) (l : List TPDU) (rest : List (Option TPDU)) (dg : Bytes) :
    Model.Sms.decodePtrLoop opts (l.map some ++ none :: rest) dg = thenNil (Model.Sms.decodeLoop opts l dg) := by
  induction l generalizing dg with
  | nil =>
    simp only [List.map_nil, List.nil_append, Model.Sms.decodePtrLoop, Model.Sms.decodeLoop]
    split <;> rfl
  | cons s ss ih =>
    simp only [List.map_cons, List.cons_append, Model.Sms.decodePtrLoop, Model.Sms.decodeLoop, ih]
    generalize DecodeUserData _ _ _ _ = d
    cases hd : d.err with
    | none => exact thenNil_bind _ _
    | some e => cases e <;> first | exact thenNil_bind _ _ | rfl

theorem completeLoop_map (n r : Nat) (l : List TPDU) (i : Nat) :
    Model.Sms.completePtrLoop n r (l.map some) i = .ok (Model.Sms.completeLoop n r l i) := by
  induction l generalizing i with
  | nil => rfl
  | cons s ss ih =>
    simp only [List.map_cons, Model.Sms.completePtrLoop, Model.Sms.completeLoop, ih]
    cases s.ConcatInfo with
    | none => rfl
    | some c => simp only; repeat' split
                all_goals rfl

/-- What becomes of `IsCompleteMessage` when it comes to a nil pointer. -/
def boolNil : Bool → M Bool
  | true => panicM .nil
  | false => .ok false

/-- The loop comes to the nil pointer if all before it are as they should be. -/
theorem completeLoop_nil (n r : Nat) (l : List TPDU) (rest : List (Option TPDU)) (i : Nat) :
    Model.Sms.completePtrLoop n r (l.map some ++ none :: rest) i =
      boolNil (Model.Sms.completeLoop n r l i) := by
  induction l generalizing i with
  | nil => rfl
  | cons s ss ih =>
    simp only [List.map_cons, List.cons_append, Model.Sms.completePtrLoop, Model.Sms.completeLoop, ih]
    cases s.ConcatInfo with
    | none => rfl
    | some c =>
      simp only
      by_cases h1 : c.segments ≠ n
      · simp only [if_pos h1]; rfl
      · by_cases h2 : c.mref ≠ r
        · simp only [if_neg h1, if_pos h2]; rfl
        · by_cases h3 : c.seqno ≠ i + 1
          · simp only [if_neg h1, if_neg h2, if_pos h3]; rfl
          · simp only [if_neg h1, if_neg h2, if_neg h3]

/-- A slice with a nil pointer, up to the first one. -/
theorem split_nil {α : Type} {d : List (Option α)} (h : none ∈ d) : ∃ (l : List α) (rest : List (Option α)), d = l.map some ++ none :: rest := by
  induction d with
  | nil => cases h
  | cons x xs ih =>
    cases x with
    | none => exact ⟨[], xs, rfl⟩
    | some a =>
      obtain ⟨l, rest, rfl⟩ := ih (by simpa using h)
      exact ⟨a :: l, rest, rfl⟩

theorem all_some {α : Type} {d : List (Option α)} (h : none ∉ d) : ∃ l : List α, d = l.map some := by
  induction d with
  | nil => exact ⟨[], rfl⟩
  | cons x xs ih =>
    cases x with
    | none => simp at h
    | some a =>
      obtain ⟨l, rfl⟩ := ih (by simpa using h)
      exact ⟨a :: l, rfl⟩

end Verif.Proofs.Nil
