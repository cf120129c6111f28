import Verif.Proofs.CollInv

/-! Timers that are armed or have fired, in histories of arbitrary TPDUs. -/

namespace Verif.Proofs.Coll
open Verif.Model Verif.Model.Collector Verif.Spec Verif.Proofs

/-- A timer that is armed or has just fired is the last timer of its reassembly; if armed, the reassembly
is pending. -/
def Armed (s : State) : Prop := ∀ (i : Nat) (t : Timer), s.timers[i]? = some t → (t.state = .armed ∨ t.state = .fired) →
  (t.state = .armed → s.pipes.lookup t.key = some t.pipe) ∧ ∃ pipe, s.heap[t.pipe]? = some pipe ∧ pipe.cleanup = some i

theorem armed_new (timeout handler : Bool) : Armed (New timeout handler) := by
  intro i t h; simp [New] at h

theorem idx_ok {α : Type} {l : List α} {i : Nat} {x : α} (h : idx l (i : Int) = .ok x) : l[i]? = some x := by
  unfold idx at h
  rw [if_pos (by omega), Int.toNat_natCast] at h
  split at h
  · cases h; assumption
  · cases h

theorem place_armed {s s' : State} {o : Output} {ptr : Ptr} {key : Bytes} {ke : Option Err} {n seq p : Nat} (ha : Armed s)
    (hne : ∀ (i : Nat) (t : Timer), s.timers[i]? = some t → (t.state = .armed ∨ t.state = .fired) → t.pipe ≠ p)
    (hl : s.pipes.lookup key = some p)
    (h : place s ptr key ke n seq p = .ok (s', o)) : Armed s' := by
  unfold place at h
  obtain ⟨pipe, h1, h⟩ := bind_eq_ok.1 h
  have hp := idx_ok h1
  have hplt := get_lt hp
  split at h
  · simp only at h
    split at h
    · cases h
      intro i t g1 g2
      obtain ⟨a, pp, b1, b2⟩ := ha i t g1 g2
      refine ⟨?_, pp, get_set.2 (.inr ⟨(hne i t g1 g2).symm, b1⟩), b2⟩
      intro g3
      have a := a g3
      simp only
      rw [lookup_delete, if_neg]
      · exact a
      · intro e
        rw [e, hl] at a
        exact hne i t g1 g2 (Option.some.inj a).symm
    · split at h
      · cases h
        intro i t g1 g2
        rcases get_snoc.1 g1 with ⟨rfl, rfl⟩ | g1
        · exact ⟨fun _ => hl, _, get_set.2 (.inl ⟨rfl, hplt, rfl⟩), rfl⟩
        · obtain ⟨a, pp, b1, b2⟩ := ha i t g1 g2
          exact ⟨a, pp, get_set.2 (.inr ⟨(hne i t g1 g2).symm, b1⟩), b2⟩
      · cases h
        intro i t g1 g2
        obtain ⟨a, pp, b1, b2⟩ := ha i t g1 g2
        exact ⟨a, pp, get_set.2 (.inr ⟨(hne i t g1 g2).symm, b1⟩), b2⟩
  · cases h

theorem placeNew_armed {s s' : State} {o : Output} {ptr : Ptr} {key : Bytes} {ke : Option Err} {n seq : Nat} (ha : Armed s)
    (hne : ∀ (i : Nat) (t : Timer), s.timers[i]? = some t → t.state = .armed → t.key ≠ key)
    (h : placeNew s ptr key ke n seq = .ok (s', o)) : Armed s' := by
  unfold placeNew at h
  refine place_armed ?_ ?_ ?_ h
  · intro i t g1 g2
    obtain ⟨a, pp, b1, b2⟩ := ha i t g1 g2
    refine ⟨?_, pp, get_snoc.2 (.inr b1), b2⟩
    intro g3
    simp only
    rw [lookup_set, if_neg (hne i t g1 g3)]
    exact a g3
  · intro i t g1 g2 e
    obtain ⟨a, pp, b1, b2⟩ := ha i t g1 g2
    have := get_lt b1
    omega
  · simp only
    rw [lookup_set, if_pos rfl]

theorem stopTimer_armed {s : State} (ha : Armed s) (tid : Nat) : Armed { s with timers := (stopTimer s.timers tid).2 } ∧
    (∀ (i : Nat) (t : Timer), (stopTimer s.timers tid).2[i]? = some t → (t.state = .armed ∨ t.state = .fired) →
      s.timers[i]? = some t ∧ (t.state = .armed → i ≠ tid)) := by
  have key : ∀ (i : Nat) (t : Timer), (stopTimer s.timers tid).2[i]? = some t → (t.state = .armed ∨ t.state = .fired) →
      s.timers[i]? = some t ∧ (t.state = .armed → i ≠ tid) := by
    intro i t h1 h2
    obtain ⟨t0, h3, h4⟩ := (stopTimer_get _ _ _ _).1 h1
    split at h4
    · rw [h4] at h2; simp at h2
    · rename_i hc
      subst h4
      exact ⟨h3, fun h2 e => hc ⟨e, h2⟩⟩
  exact ⟨fun i t h1 h2 => ha i t (key i t h1 h2).1 h2, key⟩

theorem stopTimer_true {timers : List Timer} {tid : Nat} (h : (stopTimer timers tid).1 = true) :
    ∃ t, timers[tid]? = some t ∧ t.state = .armed := by
  unfold stopTimer at h
  split at h
  · rename_i t ht
    split at h
    · exact ⟨t, ht, by assumption⟩
    · cases h
  · cases h

theorem collect_armed {s s' : State} {o : Output} {pdu : TPDU} (ha : Armed s) (h : Collect s pdu = .ok (s', o)) : Armed s' := by
  unfold Collect at h
  simp only at h
  split at h
  · cases h; exact ha
  split at h
  · cases h; exact ha
  rename_i c hc
  split at h
  · cases h; exact ha
  split at h
  · cases h; exact ha
  generalize pduKey pdu c.segments c.mref = kk at h
  obtain ⟨key, ke⟩ := kk
  simp only at h
  cases hl : s.pipes.lookup key with
  | none =>
    rw [hl] at h
    simp only at h
    refine placeNew_armed (s := { s with calls := s.calls + 1 }) ha ?_ h
    rintro i t g1 g2 rfl
    obtain ⟨a, _⟩ := ha i t g1 (.inl g2)
    rw [hl] at a
    cases a g2
  | some p =>
    rw [hl] at h
    simp only at h
    obtain ⟨pipe, h1, h⟩ := bind_eq_ok.1 h
    have hp := idx_ok h1
    obtain ⟨cur, _, h⟩ := bind_eq_ok.1 h
    split at h
    · cases h; exact ha
    split at h
    · rename_i hcl
      refine place_armed (s := { s with calls := s.calls + 1 }) ha ?_ hl h
      rintro i t g1 g2 rfl
      obtain ⟨_, pp, b1, b2⟩ := ha i t g1 g2
      rw [hp] at b1; cases b1
      rw [hcl] at b2; cases b2
    · rename_i tid hcl
      obtain ⟨ha', hkey⟩ := stopTimer_armed ha tid
      have hpt : ∀ (i : Nat) (t : Timer), (stopTimer s.timers tid).2[i]? = some t → (t.state = .armed ∨ t.state = .fired) →
          t.pipe = p → i = tid := by
        rintro i t g1 g2 rfl
        obtain ⟨g4, _⟩ := hkey i t g1 g2
        obtain ⟨_, pp, b1, b2⟩ := ha i t g4 g2
        rw [hp] at b1; cases b1
        rw [hcl] at b2; cases b2
        rfl
      split at h
      · rename_i hst
        refine place_armed (s := { s with calls := s.calls + 1, timers := (stopTimer s.timers tid).2 }) ha' ?_ hl h
        intro i t g1 g2 e
        have := hpt i t g1 g2 e
        subst this
        obtain ⟨t0, k1, k2⟩ := stopTimer_true hst
        obtain ⟨g3, g4⟩ := hkey i t g1 g2
        rw [k1] at g3; cases g3
        exact g4 k2 rfl
      · refine placeNew_armed (s := { s with calls := s.calls + 1, timers := (stopTimer s.timers tid).2 }) ha' ?_ h
        rintro i t g1 g2 rfl
        obtain ⟨a, _⟩ := ha' i t g1 (.inl g2)
        have a : s.pipes.lookup t.key = some t.pipe := a g2
        rw [hl] at a
        have := hpt i t g1 (.inl g2) (Option.some.inj a).symm
        exact (hkey i t g1 (.inl g2)).2 g2 this

/-- Closing stops all armed timers. -/
theorem close_armed {s : State} (ha : Armed s) (hc : s.closed = false) (i : Nat) :
    (Close s).timers[i]? = (s.timers[i]?).map (fun t => if t.state = .armed then { t with state := .stopped } else t) := by
  unfold Close
  rw [hc]
  simp only [Bool.false_eq_true, if_false]
  cases h : s.timers[i]? with
  | none =>
    simp only [Option.map_none]
    rw [List.getElem?_eq_none_iff, stopAll_length]
    exact List.getElem?_eq_none_iff.1 h
  | some t0 =>
    obtain ⟨t, h1, h2, h3⟩ := stopAll_get s.heap s.pipes s.timers i t0 h
    rw [h1]
    simp only [Option.map_some, Option.some.injEq]
    by_cases hs : t0.state = .armed
    · rw [if_pos hs]
      obtain ⟨a, pp, b1, b2⟩ := ha i t0 h (.inl hs)
      have := h3 t0.key t0.pipe pp (lookup_mem (a hs)) b1 b2
      rcases h2 with rfl | ⟨_, h2⟩
      · exact absurd hs this
      · exact h2
    · rw [if_neg hs]
      rcases h2 with h2 | ⟨h2, _⟩
      · exact h2
      · exact absurd h2 hs

theorem step_armed {s s' : State} {o : Output} {e : Event} (ha : Armed s) (h : step s e = .ok (s', o)) : Armed s' := by
  cases e with
  | collect pdu => exact collect_armed ha h
  | fire i =>
    cases h
    unfold fire
    split
    · rename_i t ht
      split
      · rename_i hs
        intro i' t' g1 g2
        rcases get_set.1 g1 with ⟨rfl, _, rfl⟩ | ⟨_, g1⟩
        · exact ⟨(by intro h; cases h), (ha i t ht (.inl hs)).2⟩
        · exact ha i' t' g1 g2
      · exact ha
    · exact ha
  | expire i =>
    cases h
    unfold expire
    split
    · rename_i t ht
      split
      · rename_i hs
        obtain ⟨_, pp0, c1, c2⟩ := ha i t ht (.inr hs)
        intro i' t' g1 g2
        rcases get_set.1 g1 with ⟨_, _, rfl⟩ | ⟨hne, g1⟩
        · simp at g2
        · obtain ⟨a, pp, b1, b2⟩ := ha i' t' g1 g2
          refine ⟨?_, pp, b1, b2⟩
          intro g3
          have a := a g3
          simp only
          split
          · rename_i hl
            rw [lookup_delete, if_neg]
            · exact a
            · intro e
              rw [e, hl] at a
              rw [← Option.some.inj a, c1] at b1
              cases b1
              rw [c2] at b2
              exact hne (Option.some.inj b2)
          · exact a
      · exact ha
    · exact ha
  | handle i =>
    have h : (Except.ok (handle s i) : M _) = .ok (s', o) := h
    have h := congrArg Prod.fst (Except.ok.inj h)
    simp only at h
    subst h
    unfold handle
    split
    · rename_i t ht
      split
      · intro i' t' g1 g2
        rcases get_set.1 g1 with ⟨_, _, rfl⟩ | ⟨_, g1⟩
        · simp at g2
        · exact ha i' t' g1 g2
      · exact ha
    · exact ha
  | close =>
    cases h
    rcases Bool.eq_false_or_eq_true s.closed with hc | hc
    · have : Close s = s := by unfold Close; rw [if_pos hc]
      rw [this]; exact ha
    · intro i t g1 g2
      rw [close_armed ha hc] at g1
      cases h0 : s.timers[i]? with
      | none => rw [h0] at g1; cases g1
      | some t0 =>
        rw [h0] at g1
        have g1 : t = if t0.state = .armed then { t0 with state := .stopped } else t0 := (Option.some.inj g1).symm
        split at g1
        · subst g1; simp at g2
        · subst g1
          have := ha i t h0 g2
          unfold Close
          rw [if_neg (by rw [hc]; simp)]
          exact this

theorem run_armed : ∀ (es : List Event) {s s' : State} {os : List Output}, Armed s → run s es = .ok (s', os) → Armed s' := by
  intro es
  induction es with
  | nil => intro s s' os ha h; cases h; exact ha
  | cons e es ih =>
    intro s s' os ha h
    unfold run at h
    obtain ⟨⟨s1, o⟩, h1, h⟩ := bind_eq_ok.1 h
    obtain ⟨⟨s2, os2⟩, h2, h⟩ := bind_eq_ok.1 h
    cases h
    exact ih (step_armed ha h1) h2

/-! After closing. -/

/-- No timer is counting down, and the Collector is closed. -/
structure Shut (s : State) : Prop where
  closed : s.closed = true
  quiet : ∀ (i : Nat) (t : Timer), s.timers[i]? = some t → t.state ≠ .armed

theorem shut_close {s : State} (ha : Armed s) (hs : s.closed = true → Shut s) : Shut (Close s) := by
  rcases Bool.eq_false_or_eq_true s.closed with hc | hc
  · have : Close s = s := by unfold Close; rw [if_pos hc]
    rw [this]; exact hs hc
  · refine ⟨by unfold Close; rw [hc]; rfl, ?_⟩
    intro i t g1
    rw [close_armed ha hc] at g1
    cases h0 : s.timers[i]? with
    | none => rw [h0] at g1; cases g1
    | some t0 =>
      rw [h0] at g1
      have g1 : t = if t0.state = .armed then { t0 with state := .stopped } else t0 := (Option.some.inj g1).symm
      split at g1
      · subst g1; simp
      · subst g1; assumption

/-- One step after closing: a call of `Collect` fails and changes nothing; a timer that has not fired does
not fire; and one that has, at most finishes its callback. -/
theorem shut_step {s : State} (h : Shut s) (e : Event) : ∃ s' o, step s e = .ok (s', o) ∧ Shut s' ∧
    s'.heap = s.heap ∧ (s'.handler = s.handler ∧ s'.timers.length = s.timers.length) ∧
    (∀ k p, s'.pipes.lookup k = some p → s.pipes.lookup k = some p) ∧
    (∀ (i : Nat) (t : Timer), s'.timers[i]? = some t → ∃ t0, s.timers[i]? = some t0 ∧ (t = t0 ∨
      (t0.state = .fired ∧ t = { t0 with state := .expired } ∧ e = .expire i) ∨
      (t0.state = .expired ∧ t = { t0 with state := .done } ∧ e = .handle i))) ∧
    (∀ d er, o = .returned d er → d = [] ∧ er = some .closed) ∧
    (∀ d, o = .handled d → ∃ (i : Nat) (t : Timer), e = .handle i ∧ s.timers[i]? = some t ∧ t.state = .expired ∧ d = deref s t.pipe) := by
  cases e with
  | collect pdu =>
    refine ⟨{ s with calls := s.calls + 1 }, .returned [] (some .closed), ?_, ⟨h.closed, h.quiet⟩, rfl, ⟨rfl, rfl⟩, fun _ _ h => h, ?_, ?_, ?_⟩
    · show Collect s pdu = _
      unfold Collect
      simp only
      rw [if_pos h.closed]
    · intro i t ht; exact ⟨t, ht, .inl rfl⟩
    · intro d er h; cases h; exact ⟨rfl, rfl⟩
    · intro d h; cases h
  | fire i =>
    have : fire s i = s := by
      unfold fire
      split
      · rename_i t ht
        rw [if_neg (h.quiet i t ht)]
      · rfl
    refine ⟨s, .silent, by show (Except.ok (fire s i, _) : M _) = _; rw [this], h, rfl, ⟨rfl, rfl⟩, fun _ _ h => h, ?_, ?_, ?_⟩
    · intro i t ht; exact ⟨t, ht, .inl rfl⟩
    · intro d er h; cases h
    · intro d h; cases h
  | expire i =>
    refine ⟨expire s i, .silent, rfl, ?_, ?_, ?_, ?_, ?_, ?_, ?_⟩
    · unfold expire
      split
      · rename_i t ht
        split
        · refine ⟨h.closed, ?_⟩
          intro i' t' g
          rcases get_set.1 g with ⟨_, _, rfl⟩ | ⟨_, g⟩
          · simp
          · exact h.quiet i' t' g
        · exact h
      · exact h
    · unfold expire; split
      · split <;> rfl
      · rfl
    · unfold expire; split
      · split <;> simp
      · exact ⟨rfl, rfl⟩
    · intro k p hl
      unfold expire at hl
      split at hl
      · split at hl
        · simp only at hl
          split at hl
          · rw [lookup_delete] at hl
            split at hl
            · cases hl
            · exact hl
          · exact hl
        · exact hl
      · exact hl
    · intro i' t' g
      unfold expire at g
      split at g
      · rename_i t ht
        split at g
        · rename_i hs
          rcases get_set.1 g with ⟨rfl, _, rfl⟩ | ⟨_, g⟩
          · exact ⟨t, ht, .inr (.inl ⟨hs, rfl, rfl⟩)⟩
          · exact ⟨t', g, .inl rfl⟩
        · exact ⟨t', g, .inl rfl⟩
      · exact ⟨t', g, .inl rfl⟩
    · intro d er h; cases h
    · intro d h; cases h
  | handle i =>
    refine ⟨(handle s i).1, (handle s i).2, rfl, ?_, ?_, ?_, ?_, ?_, ?_, ?_⟩
    · unfold handle
      split
      · rename_i t ht
        split
        · refine ⟨h.closed, ?_⟩
          intro i' t' g
          rcases get_set.1 g with ⟨_, _, rfl⟩ | ⟨_, g⟩
          · simp
          · exact h.quiet i' t' g
        · exact h
      · exact h
    · unfold handle; split
      · split <;> rfl
      · rfl
    · unfold handle; split
      · split <;> simp
      · exact ⟨rfl, rfl⟩
    · intro k p hl
      unfold handle at hl
      split at hl
      · split at hl <;> exact hl
      · exact hl
    · intro i' t' g
      unfold handle at g
      split at g
      · rename_i t ht
        split at g
        · rename_i hs
          rcases get_set.1 g with ⟨rfl, _, rfl⟩ | ⟨_, g⟩
          · exact ⟨t, ht, .inr (.inr ⟨hs, rfl, rfl⟩)⟩
          · exact ⟨t', g, .inl rfl⟩
        · exact ⟨t', g, .inl rfl⟩
      · exact ⟨t', g, .inl rfl⟩
    · intro d er g
      unfold handle at g
      split at g
      · split at g
        · simp only at g
          split at g <;> cases g
        · cases g
      · cases g
    · intro d g
      unfold handle at g
      split at g
      · rename_i t ht
        split at g
        · rename_i hs
          simp only at g
          split at g
          · cases g; exact ⟨i, t, rfl, ht, hs, rfl⟩
          · cases g
        · cases g
      · cases g
  | close =>
    have : Close s = s := by unfold Close; rw [if_pos h.closed]
    refine ⟨s, .silent, by show (Except.ok (Close s, _) : M _) = _; rw [this], h, rfl, ⟨rfl, rfl⟩, fun _ _ h => h, ?_, ?_, ?_⟩
    · intro i t ht; exact ⟨t, ht, .inl rfl⟩
    · intro d er h; cases h
    · intro d h; cases h

/-- A closed Collector that was reached by a history is shut. -/
theorem run_shut : ∀ (es : List Event) {s s' : State} {os : List Output}, Armed s → (s.closed = true → Shut s) →
    run s es = .ok (s', os) → s'.closed = true → Shut s' := by
  intro es
  induction es with
  | nil => intro s s' os _ hs h; cases h; exact hs
  | cons e es ih =>
    intro s s' os ha hs h
    unfold run at h
    obtain ⟨⟨s1, o⟩, h1, h⟩ := bind_eq_ok.1 h
    obtain ⟨⟨s2, os2⟩, h2, h⟩ := bind_eq_ok.1 h
    cases h
    refine ih (step_armed ha h1) ?_ h2
    intro hc1
    rcases Bool.eq_false_or_eq_true s.closed with hc | hc
    · obtain ⟨s3, o3, h3, h4, _⟩ := shut_step (hs hc) e
      rw [h1] at h3; cases h3
      exact h4
    · cases e with
      | collect pdu =>
        have : s1.closed = s.closed := by
          have hpl : ∀ {s s' : State} {o : Output} {ptr : Ptr} {key : Bytes} {ke : Option Err} {n seq p : Nat},
              place s ptr key ke n seq p = .ok (s', o) → s'.closed = s.closed := by
            intro s s' o ptr key ke n seq p h
            unfold place at h
            obtain ⟨pipe, _, h⟩ := bind_eq_ok.1 h
            split at h
            · simp only at h
              split at h
              · cases h; rfl
              · split at h
                · cases h; rfl
                · cases h; rfl
            · cases h
          have hpn : ∀ {s s' : State} {o : Output} {ptr : Ptr} {key : Bytes} {ke : Option Err} {n seq : Nat},
              placeNew s ptr key ke n seq = .ok (s', o) → s'.closed = s.closed := fun h => by
            unfold placeNew at h
            have := hpl h
            exact this
          have h1 : Collect s pdu = .ok (s1, o) := h1
          unfold Collect at h1
          simp only at h1
          split at h1
          · cases h1; rfl
          split at h1
          · cases h1; rfl
          split at h1
          · cases h1; rfl
          split at h1
          · cases h1; rfl
          split at h1
          · have := hpn h1; exact this
          · obtain ⟨_, _, h1⟩ := bind_eq_ok.1 h1
            obtain ⟨_, _, h1⟩ := bind_eq_ok.1 h1
            split at h1
            · cases h1; rfl
            split at h1
            · have := hpl h1; exact this
            · split at h1
              · have := hpl h1; exact this
              · have := hpn h1; exact this
        rw [this, hc] at hc1; cases hc1
      | fire i =>
        cases h1
        have : (fire s i).closed = s.closed := by
          unfold fire; split
          · split <;> rfl
          · rfl
        rw [this, hc] at hc1; cases hc1
      | expire i =>
        cases h1
        have : (expire s i).closed = s.closed := by
          unfold expire; split
          · split <;> rfl
          · rfl
        rw [this, hc] at hc1; cases hc1
      | handle i =>
        have h1 : (Except.ok (handle s i) : M _) = .ok (s1, o) := h1
        have h1 := congrArg Prod.fst (Except.ok.inj h1)
        simp only at h1
        subst h1
        have : (handle s i).1.closed = s.closed := by
          unfold handle; split
          · split <;> rfl
          · rfl
        rw [this, hc] at hc1; cases hc1
      | close =>
        cases h1
        exact shut_close ha (fun h => by rw [hc] at h; cases h)

theorem shut_run : ∀ (es : List Event) {s : State}, Shut s → ∃ s' os, run s es = .ok (s', os) ∧ Shut s' ∧ os.length = es.length ∧
    (s'.heap = s.heap ∧ s'.timers.length = s.timers.length) ∧ (∀ k p, s'.pipes.lookup k = some p → s.pipes.lookup k = some p) ∧
    (∀ (i : Nat) (t : Timer), s'.timers[i]? = some t → ∃ t0, s.timers[i]? = some t0 ∧ (t = t0 ∨
      (t0.state = .fired ∨ t0.state = .expired))) ∧
    (∀ (i : Nat) pdu, es[i]? = some (.collect pdu) → os[i]? = some (.returned [] (some .closed))) ∧
    (∀ (i : Nat) d er, os[i]? = some (.returned d er) → d = [] ∧ er = some .closed) ∧
    (∀ (i : Nat) d, os[i]? = some (.handled d) → ∃ (ti : Nat) (t : Timer), es[i]? = some (.handle ti) ∧ s.timers[ti]? = some t ∧
      (t.state = .fired ∨ t.state = .expired) ∧ d = deref s t.pipe) := by
  intro es
  induction es with
  | nil =>
    intro s h
    exact ⟨s, [], rfl, h, rfl, ⟨rfl, rfl⟩, fun _ _ h => h, fun i t ht => ⟨t, ht, .inl rfl⟩, by simp, by simp, by simp⟩
  | cons e es ih =>
    intro s h
    obtain ⟨s1, o, h1, h2, h3, h4, h5, h6, h7, h8⟩ := shut_step h e
    obtain ⟨s2, os, g1, g2, gl, g3, g4, g5, g6, g7, g8⟩ := ih h2
    refine ⟨s2, o :: os, ?_, g2, by simp [gl], ⟨g3.1.trans h3, g3.2.trans h4.2⟩, fun k p hl => h5 k p (g4 k p hl), ?_, ?_, ?_, ?_⟩
    · unfold run
      rw [h1]
      simp only [ok_bind]
      rw [g1]
      rfl
    · intro i t ht
      obtain ⟨t1, a1, a2⟩ := g5 i t ht
      obtain ⟨t0, b1, b2⟩ := h6 i t1 a1
      refine ⟨t0, b1, ?_⟩
      rcases b2 with rfl | ⟨b2, _⟩ | ⟨b2, _⟩
      · exact a2
      · exact .inr (.inl b2)
      · exact .inr (.inr b2)
    · intro i pdu hi
      cases i with
      | zero =>
        simp only [List.getElem?_cons_zero, Option.some.injEq] at hi ⊢
        subst hi
        have h1 : Collect s pdu = .ok (s1, o) := h1
        unfold Collect at h1
        simp only at h1
        rw [if_pos h.closed] at h1
        cases h1; rfl
      | succ i => exact g6 i pdu hi
    · intro i d er hi
      cases i with
      | zero =>
        simp only [List.getElem?_cons_zero, Option.some.injEq] at hi
        exact h7 d er hi
      | succ i => exact g7 i d er hi
    · intro i d hi
      cases i with
      | zero =>
        simp only [List.getElem?_cons_zero, Option.some.injEq] at hi ⊢
        obtain ⟨ti, t, a1, a2, a3, a4⟩ := h8 d hi
        exact ⟨ti, t, a1, a2, .inr a3, a4⟩
      | succ i =>
        obtain ⟨ti, t, a1, a2, a3, a4⟩ := g8 i d hi
        obtain ⟨t0, b1, b2⟩ := h6 ti t a2
        refine ⟨ti, t0, a1, b1, ?_, ?_⟩
        · rcases b2 with rfl | ⟨b2, _⟩ | ⟨b2, _⟩
          · exact a3
          · exact .inl b2
          · exact .inr b2
        · have : t.pipe = t0.pipe := by
            rcases b2 with rfl | ⟨_, rfl, _⟩ | ⟨_, rfl, _⟩ <;> rfl
          rw [a4, this]
          unfold deref
          rw [h3]

end Verif.Proofs.Coll
