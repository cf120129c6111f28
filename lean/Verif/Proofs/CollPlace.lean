import Verif.Proofs.CollHist

/-! Where segments are: one place each. -/

namespace Verif.Proofs.Coll
open Verif.Model Verif.Model.Collector Verif.Spec Verif.Proofs

/-- The place of slot `j` of the pipe `p`. -/
inductive W (es : List Event) (os : List Output) (s : State) (p : Nat) (pipe : Pipe) (j : Nat) : Place → Prop
  | returned (i : Nat) : pipe.frags = pipe.segments.length → os[i]? = some (.returned pipe.segments none) → W es os s p pipe j (.returned i j)
  | handled (i ti : Nat) (t : Timer) : s.handler = true → pipe.frags < pipe.segments.length → (∀ k, s.pipes.lookup k ≠ some p) →
      pipe.cleanup = some ti → s.timers[ti]? = some t → t.state = .done → es[i]? = some (.handle ti) →
      os[i]? = some (.handled pipe.segments) → W es os s p pipe j (.handled i j)
  | pending (k : Bytes) : s.pipes.lookup k = some p → pipe.frags < pipe.segments.length → W es os s p pipe j (.pending k j)
  | expiring (ti : Nat) (t : Timer) : pipe.frags < pipe.segments.length → (∀ k, s.pipes.lookup k ≠ some p) →
      pipe.cleanup = some ti → s.timers[ti]? = some t → (t.state = .expired ∨ t.state = .fired) → W es os s p pipe j (.expiring ti j)
  | discarded (ti : Nat) (t : Timer) : s.handler = false → pipe.frags < pipe.segments.length → (∀ k, s.pipes.lookup k ≠ some p) →
      pipe.cleanup = some ti → s.timers[ti]? = some t → t.state = .done → W es os s p pipe j (.discarded ti j)

theorem w_uniq {es : List Event} {os : List Output} {s : State} (hh : Hist es os s) {p : Nat} {pipe : Pipe} {j : Nat} {ptr : Ptr}
    (hj : pipe.segments[j]? = some (some ptr)) {pl pl' : Place}
    (h : W es os s p pipe j pl) (h' : W es os s p pipe j pl') : pl' = pl := by
  have hmem := List.mem_of_getElem? hj
  cases h with
  | returned i h1 h2 =>
    cases h' with
    | returned i' _ h2' => rw [hh.ret_uniq i i' _ _ _ _ ptr ptr h2 h2' hmem hmem rfl]
    | handled _ _ _ _ g => omega
    | pending _ _ g => omega
    | expiring _ _ g => omega
    | discarded _ _ _ g => omega
  | pending k h1 h2 =>
    cases h' with
    | returned _ g => omega
    | handled _ _ _ _ _ g => exact absurd h1 (g k)
    | pending k' h1' => rw [hh.inv.inj h1 h1']
    | expiring _ _ _ g => exact absurd h1 (g k)
    | discarded _ _ _ _ g => exact absurd h1 (g k)
  | handled i ti t h1 h2 h3 h4 h5 h6 h7 h8 =>
    cases h' with
    | returned _ g => omega
    | handled i' ti' t' _ _ _ g4 _ _ g7 g8 =>
      rw [h4] at g4; cases g4
      rw [hh.hand_uniq i i' ti _ _ h7 g7 h8 g8]
    | pending k g => exact absurd g (h3 k)
    | expiring ti' t' _ _ g4 g5 g6 =>
      rw [h4] at g4; cases g4
      rw [h5] at g5; cases g5
      rw [h6] at g6; simp at g6
    | discarded _ _ g => rw [h1] at g; cases g
  | expiring ti t h2 h3 h4 h5 h6 =>
    cases h' with
    | returned _ g => omega
    | handled i' ti' t' _ _ _ g4 g5 g6 g7 g8 =>
      rw [h4] at g4; cases g4
      rw [h5] at g5; cases g5
      rw [g6] at h6; simp at h6
    | pending k g => exact absurd g (h3 k)
    | expiring ti' t' _ _ g4 g5 g6 => rw [h4] at g4; cases g4; rfl
    | discarded ti' t' _ _ _ g4 g5 g6 =>
      rw [h4] at g4; cases g4
      rw [h5] at g5; cases g5
      rw [g6] at h6; simp at h6
  | discarded ti t h1 h2 h3 h4 h5 h6 =>
    cases h' with
    | returned _ g => omega
    | handled _ _ _ g => rw [h1] at g; cases g
    | pending k g => exact absurd g (h3 k)
    | expiring ti' t' _ _ g4 g5 g6 =>
      rw [h4] at g4; cases g4
      rw [h5] at g5; cases g5
      rw [h6] at g6; simp at g6
    | discarded ti' t' _ _ _ g4 => rw [h4] at g4; cases g4; rfl

/-- Every filled slot has a place. -/
theorem w_exists {es : List Event} {os : List Output} {s : State} (hh : Hist es os s) {p : Nat} {pipe : Pipe} (j : Nat)
    (hp : s.heap[p]? = some pipe) : ∃ pl, W es os s p pipe j pl := by
  obtain ⟨_, hcase⟩ := hh.inv.heap p pipe hp
  rcases hcase with hfull | ⟨k, hk⟩ | ⟨ti, t, hcl, ht, hfi⟩
  · obtain ⟨i, hi⟩ := hh.full p pipe hp hfull
    exact ⟨_, .returned i hfull hi⟩
  · obtain ⟨pipe', hp', _, hinc, _⟩ := hh.inv.cur k p hk
    rw [hp] at hp'; cases hp'
    exact ⟨_, .pending k hk hinc⟩
  · obtain ⟨t', ht', hpt⟩ := hh.inv.cl p pipe ti hp hcl
    rw [ht] at ht'; cases ht'
    obtain ⟨pipe', hp', _, hns, _, hcur⟩ := hh.inv.tim ti t ht
    rw [hpt, hp] at hp'; cases hp'
    have hinc := (hns (by intro e; unfold Fired at hfi; rw [e] at hfi; simp at hfi)).2
    rw [hpt] at hcur
    rcases hfi with hs | hs | hs
    · by_cases hc : ∃ k, s.pipes.lookup k = some p
      · obtain ⟨k, hk⟩ := hc
        exact ⟨_, .pending k hk hinc⟩
      · exact ⟨_, .expiring ti t hinc (fun k hk => hc ⟨k, hk⟩) hcl ht (.inr hs)⟩
    · exact ⟨_, .expiring ti t hinc (hcur (.inl hs)) hcl ht (.inl hs)⟩
    · rcases Bool.eq_false_or_eq_true s.handler with hd | hd
      · obtain ⟨i, hi, ho⟩ := hh.done ti t ht hs hd
        rw [hpt, deref_of hp] at ho
        exact ⟨_, .handled i ti t hd hinc (hcur (.inr hs)) hcl ht hs hi ho⟩
      · exact ⟨_, .discarded ti t hd hinc (hcur (.inr hs)) hcl ht hs⟩

theorem w_at {es : List Event} {os : List Output} {s : State} (hh : Hist es os s) {p : Nat} {pipe : Pipe} {j : Nat} {ptr : Ptr}
    (hp : s.heap[p]? = some pipe) (hj : pipe.segments[j]? = some (some ptr)) {pl : Place}
    (h : W es os s p pipe j pl) : At os s ptr.id pl := by
  have tp : ∀ {ti : Nat} {t : Timer}, pipe.cleanup = some ti → s.timers[ti]? = some t → t.pipe = p := by
    intro ti t h1 h2
    obtain ⟨t', ht', hpt⟩ := hh.inv.cl p pipe ti hp h1
    rw [h2] at ht'; cases ht'
    exact hpt
  cases h with
  | returned i h1 h2 => exact ⟨_, _, ptr, h2, hj, rfl⟩
  | handled i ti t h1 h2 h3 h4 h5 h6 h7 h8 => exact ⟨_, ptr, h8, hj, rfl⟩
  | pending k h1 h2 => exact ⟨p, ptr, h1, by rw [deref_of hp]; exact hj, rfl⟩
  | expiring ti t h2 h3 h4 h5 h6 =>
    have := tp h4 h5
    refine ⟨t, ptr, h5, ?_, by rw [this, deref_of hp]; exact hj, rfl⟩
    rw [this]
    rcases h6 with h6 | h6
    · exact .inl h6
    · exact .inr ⟨h6, h3⟩
  | discarded ti t h1 h2 h3 h4 h5 h6 =>
    have := tp h4 h5
    exact ⟨h1, t, ptr, h5, h6, by rw [this, deref_of hp]; exact hj, rfl⟩

/-- Every place is that of a slot, or of a TPDU that was returned by itself. -/
theorem at_w {es : List Event} {os : List Output} {s : State} (hh : Hist es os s) {c : Nat} {pl : Place} (h : At os s c pl) :
    (∃ i pdu, pl = .returned i 0 ∧ os[i]? = some (.returned [some ⟨c, pdu⟩] none) ∧ (replies os)[c]? = some ([some ⟨c, pdu⟩], none) ∧
      ∀ p j ptr, Slot s p j ptr → ptr.id ≠ c) ∨
    ∃ (p : Nat) (pipe : Pipe) (j : Nat) (ptr : Ptr), s.heap[p]? = some pipe ∧ pipe.segments[j]? = some (some ptr) ∧ ptr.id = c ∧
      W es os s p pipe j pl := by
  have tm : ∀ {ti : Nat} {t : Timer} {j : Nat} {ptr : Ptr}, s.timers[ti]? = some t → t.state ≠ .stopped →
      (deref s t.pipe)[j]? = some (some ptr) → ∃ pipe, s.heap[t.pipe]? = some pipe ∧ pipe.segments[j]? = some (some ptr) ∧
        pipe.frags < pipe.segments.length ∧ pipe.cleanup = some ti ∧
        ((t.state = .expired ∨ t.state = .done) → ∀ k, s.pipes.lookup k ≠ some t.pipe) := by
    intro ti t j ptr ht hs hj
    obtain ⟨pipe, hp, _, hns, _, hcur⟩ := hh.inv.tim ti t ht
    rw [deref_of hp] at hj
    exact ⟨pipe, hp, hj, (hns hs).2, (hns hs).1, hcur⟩
  cases pl with
  | returned i j =>
    obtain ⟨d, e, ptr, h1, h2, h3⟩ := h
    have hd : d ≠ [] := by rintro rfl; simp at h2
    obtain ⟨rfl, hr⟩ := hh.ret i d e h1 hd
    rcases hr with ⟨c', pdu, rfl, _, _, hrep, hno⟩ | ⟨p, pipe, hp, hfull, rfl⟩
    · left
      have hj : j = 0 := by
        cases j with
        | zero => rfl
        | succ j => simp at h2
      subst hj
      simp only [List.getElem?_cons_zero, Option.some.injEq] at h2
      subst h2
      simp only at h3
      subst h3
      exact ⟨i, pdu, rfl, h1, hrep, hno⟩
    · right
      exact ⟨p, pipe, j, ptr, hp, h2, h3, .returned i hfull h1⟩
  | handled i j =>
    right
    obtain ⟨d, ptr, h1, h2, h3⟩ := h
    obtain ⟨hd, ti, t, he, ht, hs, rfl⟩ := hh.hand i d h1
    obtain ⟨pipe, hp, hj, hinc, hcl, hcur⟩ := tm ht (by rw [hs]; simp) h2
    rw [deref_of hp] at h1
    exact ⟨t.pipe, pipe, j, ptr, hp, hj, h3, .handled i ti t hd hinc (hcur (.inr hs)) hcl ht hs he h1⟩
  | pending k j =>
    right
    obtain ⟨p, ptr, h1, h2, h3⟩ := h
    have h1 : s.pipes.lookup k = some p := h1
    obtain ⟨pipe, hp, _, hinc, _⟩ := hh.inv.cur k p h1
    rw [deref_of hp] at h2
    exact ⟨p, pipe, j, ptr, hp, h2, h3, .pending k h1 hinc⟩
  | expiring ti j =>
    right
    obtain ⟨t, ptr, ht, hs, hj, h3⟩ := h
    have hne : t.state ≠ .stopped := by
      rcases hs with hs | ⟨hs, _⟩ <;> rw [hs] <;> simp
    obtain ⟨pipe, hp, hj, hinc, hcl, hcur⟩ := tm ht hne hj
    refine ⟨t.pipe, pipe, j, ptr, hp, hj, h3, .expiring ti t hinc ?_ hcl ht ?_⟩
    · rcases hs with hs | ⟨_, hn⟩
      · exact hcur (.inl hs)
      · exact hn
    · rcases hs with hs | ⟨hs, _⟩
      · exact .inl hs
      · exact .inr hs
  | discarded ti j =>
    right
    obtain ⟨hd, t, ptr, ht, hs, hj, h3⟩ := h
    obtain ⟨pipe, hp, hj, hinc, hcl, hcur⟩ := tm ht (by rw [hs]; simp) hj
    exact ⟨t.pipe, pipe, j, ptr, hp, hj, h3, .discarded ti t hd hinc (hcur (.inr hs)) hcl ht hs⟩

theorem at_uniq {es : List Event} {os : List Output} {s : State} (hh : Hist es os s) {c : Nat} {pl pl' : Place} (h : At os s c pl)
    (h' : At os s c pl') : pl' = pl := by
  rcases at_w hh h with ⟨i, pdu, rfl, h1, _, h2⟩ | ⟨p, pipe, j, ptr, hp, hj, hid, hw⟩
  · rcases at_w hh h' with ⟨i', pdu', rfl, h1', _, _⟩ | ⟨p, pipe, j, ptr, hp, hj, hid, hw⟩
    · rw [hh.ret_uniq i i' _ _ _ _ ⟨c, pdu⟩ ⟨c, pdu'⟩ h1 h1' (by simp) (by simp) rfl]
    · exact absurd hid (h2 p j ptr ⟨pipe, hp, hj⟩)
  · rcases at_w hh h' with ⟨i', pdu', rfl, h1', _, h2⟩ | ⟨p', pipe', j', ptr', hp', hj', hid', hw'⟩
    · exact absurd hid (h2 p j ptr ⟨pipe, hp, hj⟩)
    · obtain ⟨rfl, rfl⟩ := hh.inv.uniq p pipe j ptr p' pipe' j' ptr' hp hj hp' hj' (hid.trans hid'.symm)
      rw [hp] at hp'; cases hp'
      exact w_uniq hh hj hw hw'

theorem at_exists {es : List Event} {os : List Output} {s : State} (hh : Hist es os s) {c : Nat} {d : List (Option Ptr)}
    (h : (replies os)[c]? = some (d, none)) : ∃ pl, At os s c pl := by
  rcases hh.acc c d h with ⟨pdu, rfl⟩ | ⟨p, j, ptr, ⟨pipe, hp, hj⟩, hid⟩
  · obtain ⟨i, hi⟩ := List.mem_iff_getElem?.1 (replies_mem (List.mem_of_getElem? h))
    exact ⟨.returned i 0, _, _, ⟨c, pdu⟩, hi, rfl, rfl⟩
  · obtain ⟨pl, hw⟩ := w_exists hh j hp
    have := w_at hh hp hj hw
    rw [hid] at this
    exact ⟨pl, this⟩

theorem at_accepted {es : List Event} {os : List Output} {s : State} (hh : Hist es os s) {c : Nat} {pl : Place} (h : At os s c pl) :
    ∃ d, (replies os)[c]? = some (d, none) := by
  rcases at_w hh h with ⟨i, pdu, rfl, h1, h3, h2⟩ | ⟨p, pipe, j, ptr, hp, hj, hid, hw⟩
  · exact ⟨_, h3⟩
  · rw [← hid]
    exact (hh.genuine p j ptr ⟨pipe, hp, hj⟩).2

end Verif.Proofs.Coll
