import Verif.Proofs.Alias

/-! Concurrent calls that append to a slice they share. -/

namespace Verif.Proofs.Alias
open Verif.Model Verif.Model.Alias Verif.Spec Verif.Proofs

/-- The call has options left to append. -/
def Pending (c : Call) : Prop := ∃ o t, c.todo = .apply o :: t

/-- How far a call with options `l` is. -/
def Progress (m : Mem CharsetOpt) (base l : List CharsetOpt) (c : Call) : Prop :=
  ∃ done rest, l = done ++ rest ∧ m.read c.eopts = base ++ done ∧
    ((c.todo = rest.map .apply ++ [.use] ∧ c.seen = none) ∨ (rest = [] ∧ c.todo = [] ∧ c.seen = some (base ++ l)))

/-- Nothing that is still to be appended by one call is written to what the other has. -/
def Apart (c d : Call) : Prop :=
  ∀ a p, Pending c → Spare c.eopts a p → ¬ Used d.eopts a p ∧ (Pending d → ¬ Spare d.eopts a p)

structure CallsInv (base : List CharsetOpt) (ls : List (List CharsetOpt)) (m : Mem CharsetOpt) (cs : List Call) : Prop where
  len : cs.length = ls.length
  alloc : ∀ (i : Nat) c, cs[i]? = some c → Allocated m c.eopts
  prog : ∀ (i : Nat) c l, cs[i]? = some c → ls[i]? = some l → Progress m base l c
  apart : ∀ (i j : Nat) c d, i ≠ j → cs[i]? = some c → cs[j]? = some d → Apart c d

theorem set_get {α : Type} (l : List α) (i j : Nat) (x y : α) (h : (l.set i x)[j]? = some y) :
    (i = j ∧ y = x) ∨ (i ≠ j ∧ l[j]? = some y) := by
  rw [List.getElem?_set] at h
  split at h
  · split at h
    · cases h; exact .inl ⟨by assumption, rfl⟩
    · cases h
  · exact .inr ⟨by assumption, h⟩

theorem calls_step (grow : Nat → Nat) (base : List CharsetOpt) (ls : List (List CharsetOpt)) (m m' : Mem CharsetOpt)
    (cs : List Call) (i : Nat) (c c' : Call) (hI : CallsInv base ls m cs) (hc : cs[i]? = some c)
    (h : c.step grow m = (m', c')) : CallsInv base ls m' (cs.set i c') := by
  unfold Call.step at h
  have hl : ∃ l, ls[i]? = some l := by
    have := (List.getElem?_eq_some_iff.1 hc).1
    exact ⟨_, List.getElem?_eq_getElem (by rw [← hI.len]; exact this)⟩
  obtain ⟨l, hl⟩ := hl
  obtain ⟨done, rest, p1, p2, p3⟩ := hI.prog i c l hc hl
  have ha := hI.alloc i c hc
  split at h
  · -- nothing to do
    rename_i ht
    cases h
    have : cs.set i c = cs := by
      apply List.ext_getElem?
      intro j
      rw [List.getElem?_set]
      split
      · subst_vars
        rw [if_pos (List.getElem?_eq_some_iff.1 hc).1, hc]
      · rfl
    rw [this]
    exact hI
  · -- an option is appended
    rename_i o t ht
    obtain ⟨m1, e, he⟩ : ∃ m1 e, m.append grow c.eopts [o] = (m1, e) := ⟨_, _, rfl⟩
    rw [he] at h
    cases h
    have hpc : Pending c := ⟨o, t, ht⟩
    obtain ⟨g1, g2, g3, g4, g5, g6⟩ := append_spec grow m _ _ ha he
    simp only [List.length_singleton] at g5 g6
    have hread : ∀ (j : Nat) d, i ≠ j → cs[j]? = some d → m'.read d.eopts = m.read d.eopts := by
      intro j d hij hd
      apply read_congr
      intro a p hu
      apply g2 a p
      · have := (hI.alloc j d hd).1
        have := hu.1
        omega
      · intro hs
        exact ((hI.apart i j c d hij hc hd) a p hpc hs).1 hu
    -- what the call has now is what it had, part of its unused capacity, or new
    have hsub : ∀ a p, (Used e a p → Used c.eopts a p ∨ Spare c.eopts a p ∨ a = m.next) ∧
        (Spare e a p → Spare c.eopts a p ∨ a = m.next) := by
      intro a p
      unfold Used Spare
      rcases g6 with ⟨a1, a2, a3, a4, _⟩ | ⟨a1, a2, _⟩
      · rw [a1, a2, a3, g5]; omega
      · rw [a1]; omega
    have hpend : ∀ d, Pending (Call.mk t e d) → Pending c := fun _ _ => hpc
    refine ⟨by rw [List.length_set]; exact hI.len, ?_, ?_, ?_⟩
    · intro j d hd
      rcases set_get _ _ _ _ _ hd with ⟨_, rfl⟩ | ⟨_, hd⟩
      · exact g4
      · have := hI.alloc j d hd
        exact ⟨Nat.lt_of_lt_of_le this.1 g3, this.2⟩
    · intro j d l' hd hl'
      rcases set_get _ _ _ _ _ hd with ⟨rfl, rfl⟩ | ⟨hij, hd⟩
      · rw [hl] at hl'
        cases hl'
        rcases p3 with ⟨q1, q2⟩ | ⟨_, q1, _⟩
        · rw [ht] at q1
          cases rest with
          | nil => simp at q1
          | cons r rest =>
            simp only [List.map_cons, List.cons_append, List.cons.injEq, OptStep.apply.injEq] at q1
            obtain ⟨rfl, q1⟩ := q1
            exact ⟨done ++ [o], rest, by simp [p1], by simp only; rw [g1, p2, List.append_assoc], .inl ⟨q1, q2⟩⟩
        · rw [ht] at q1; cases q1
      · obtain ⟨dn, rs, r1, r2, r3⟩ := hI.prog j d l' hd hl'
        exact ⟨dn, rs, r1, by rw [hread j d hij hd]; exact r2, r3⟩
    · intro j k d f hjk hd hf
      rcases set_get _ _ _ _ _ hd with ⟨rfl, rfl⟩ | ⟨hij, hd⟩
      · rcases set_get _ _ _ _ _ hf with ⟨hh, _⟩ | ⟨_, hf⟩
        · exact absurd hh hjk
        · intro a p _ hs
          have hfa := (hI.alloc k f hf).1
          rcases (hsub a p).2 hs with hs | hs
          · exact (hI.apart i k c f hjk hc hf) a p hpc hs
          · refine ⟨fun hu => ?_, fun _ hsp => ?_⟩
            · have := hu.1; omega
            · have := hsp.1; omega
      · rcases set_get _ _ _ _ _ hf with ⟨rfl, rfl⟩ | ⟨_, hf⟩
        · intro a p hpd hs
          have hda := (hI.alloc j d hd).1
          have hda' := hs.1
          have h1 := (hI.apart j i d c (fun hh => hij hh.symm) hd hc) a p hpd hs
          refine ⟨fun hu => ?_, fun _ hsp => ?_⟩
          · rcases (hsub a p).1 hu with hu | hu | hu
            · exact h1.1 hu
            · exact h1.2 hpc hu
            · omega
          · rcases (hsub a p).2 hsp with hu | hu
            · exact h1.2 hpc hu
            · omega
        · exact hI.apart j k d f hjk hd hf
  · -- the options are read
    rename_i t ht
    cases h
    have hnp : ∀ s, ¬ Pending (Call.mk t c.eopts s) := by
      rintro s ⟨o, t', h'⟩
      rcases p3 with ⟨q1, _⟩ | ⟨_, q1, _⟩
      · rw [ht] at q1
        cases rest with
        | nil => simp only [List.map_nil, List.nil_append, List.cons.injEq] at q1; rw [q1.2] at h'; cases h'
        | cons r rest => simp at q1
      · rw [ht] at q1; cases q1
    refine ⟨by rw [List.length_set]; exact hI.len, ?_, ?_, ?_⟩
    · intro j d hd
      rcases set_get _ _ _ _ _ hd with ⟨_, rfl⟩ | ⟨_, hd⟩
      · exact ha
      · exact hI.alloc j d hd
    · intro j d l' hd hl'
      rcases set_get _ _ _ _ _ hd with ⟨rfl, rfl⟩ | ⟨hij, hd⟩
      · rw [hl] at hl'
        cases hl'
        rcases p3 with ⟨q1, q2⟩ | ⟨_, q1, _⟩
        · rw [ht] at q1
          cases rest with
          | cons r rest => simp at q1
          | nil =>
            simp only [List.map_nil, List.nil_append, List.cons.injEq, true_and] at q1
            exact ⟨done, [], p1, p2, .inr ⟨rfl, q1, by simp only; rw [p2, p1, List.append_nil]⟩⟩
        · rw [ht] at q1; cases q1
      · exact hI.prog j d l' hd hl'
    · intro j k d f hjk hd hf
      rcases set_get _ _ _ _ _ hd with ⟨rfl, rfl⟩ | ⟨hij, hd⟩
      · intro a p hp
        exact absurd hp (hnp _)
      · rcases set_get _ _ _ _ _ hf with ⟨rfl, rfl⟩ | ⟨_, hf⟩
        · intro a p hpd hs
          exact ⟨(hI.apart j i d c (fun hh => hij hh.symm) hd hc a p hpd hs).1, fun hp => absurd hp (hnp _)⟩
        · exact hI.apart j k d f hjk hd hf

theorem calls_run (grow : Nat → Nat) (base : List CharsetOpt) (ls : List (List CharsetOpt)) : ∀ (sched : List Nat)
    (m : Mem CharsetOpt) (cs : List Call), CallsInv base ls m cs →
    CallsInv base ls (runCalls grow sched m cs).1 (runCalls grow sched m cs).2
  | [], m, cs, h => h
  | i :: is, m, cs, h => by
    unfold runCalls
    split
    · exact calls_run grow base ls is m cs h
    · rename_i c hc
      exact calls_run grow base ls is _ _ (calls_step grow base ls m _ cs i c _ h hc rfl)

end Verif.Proofs.Alias
