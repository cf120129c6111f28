import Verif.Proofs.Ignored
import Verif.Proofs.CollInv

namespace Verif.Proofs.Idle
open Verif.Model Verif.Model.Collector Verif.Spec Verif.Proofs.Coll
open Verif.Proofs.Ignored (idx_map)

def bare (p : Pipe) : Pipe := { p with cleanup := none }

/-- The Collector without its timers. -/
def strip (h0 : Bool) (s : State) : State := { s with timers := [], timeout := false, handler := h0, heap := s.heap.map bare }

/-- No timer has run out. -/
def NoFired (s : State) : Prop := ∀ t ∈ s.timers, t.state = .armed ∨ t.state = .stopped

theorem place_strip (h0 : Bool) (s : State) (ptr : Ptr) (key : Bytes) (ke : Option Err) (n q p : Nat) :
    place (strip h0 s) ptr key ke n q p = (place s ptr key ke n q p).map (fun r => (strip h0 r.1, r.2)) ∧
    ∀ r, place s ptr key ke n q p = .ok r → NoFired s → NoFired r.1 := by
  unfold place
  have e : idx (strip h0 s).heap p = (idx s.heap p).map bare := idx_map bare s.heap p
  rw [e]
  cases idx s.heap p with
  | error f => exact ⟨rfl, fun r hr => by cases hr⟩
  | ok pipe =>
    simp only [Except.map, ok_bind]
    show ((if q - 1 < pipe.segments.length then _ else _) = _) ∧ _
    by_cases h1 : q - 1 < pipe.segments.length
    · rw [if_pos h1, if_pos h1]
      by_cases h2 : pipe.frags + 1 = n
      · simp only [bare, if_pos h2]
        refine ⟨by simp [strip, bare, List.map_set, pure, Except.pure, h2], fun r hr hn => ?_⟩
        cases hr
        exact hn
      · simp only [bare, if_neg h2]
        by_cases h3 : s.timeout = true
        · simp only [if_pos h3]
          refine ⟨by simp [strip, bare, List.map_set, pure, Except.pure, h2], fun r hr hn => ?_⟩
          cases hr
          intro t ht
          rcases List.mem_append.1 ht with ht | ht
          · exact hn t ht
          · rw [List.mem_singleton.1 ht]; exact .inl rfl
        · simp only [if_neg h3]
          refine ⟨by simp [strip, bare, List.map_set, pure, Except.pure, h2], fun r hr hn => ?_⟩
          cases hr
          exact hn
    · rw [if_neg h1, if_neg h1]; exact ⟨rfl, fun r hr => by cases hr⟩

theorem placeNew_strip (h0 : Bool) (s : State) (ptr : Ptr) (key : Bytes) (ke : Option Err) (n q : Nat) :
    placeNew (strip h0 s) ptr key ke n q = (placeNew s ptr key ke n q).map (fun r => (strip h0 r.1, r.2)) ∧
    ∀ r, placeNew s ptr key ke n q = .ok r → NoFired s → NoFired r.1 := by
  unfold placeNew
  refine ⟨?_, fun r hr hn => (place_strip h0 _ _ _ _ _ _ _).2 r hr hn⟩
  rw [← (place_strip h0 _ _ _ _ _ _ _).1]
  congr 1
  · simp [strip, bare]
  · simp [strip]

theorem stop_noFired {s : State} (hn : NoFired s) (tid : Nat) : NoFired { s with timers := (stopTimer s.timers tid).2 } := by
  intro t ht
  unfold stopTimer at ht
  simp only at ht
  cases h1 : s.timers[tid]? with
  | none => rw [h1] at ht; exact hn t ht
  | some t0 =>
    rw [h1] at ht
    simp only at ht
    by_cases h2 : t0.state = .armed
    · rw [if_pos h2] at ht
      rcases List.mem_or_eq_of_mem_set ht with ht | ht
      · exact hn t ht
      · rw [ht]; exact .inr rfl
    · rw [if_neg h2] at ht; exact hn t ht

/-- The message at `p` has a timer of its own that is counting down. -/
def Kept (s : State) (k : Bytes) (p : Nat) : Prop :=
  ∃ pipe tid, s.heap[p]? = some pipe ∧ pipe.cleanup = some tid ∧ s.timers[tid]? = some ⟨.armed, k, p⟩

/-- All pending messages of a Collector with a timeout have a timer that is counting down. -/
structure Ticking (s : State) : Prop where
  timeout : s.timeout = true
  fine : NoFired s
  kept : s.closed = false → ∀ k p, s.pipes.lookup k = some p → Kept s k p

theorem idx_some {α : Type} {l : List α} {p : Nat} {a : α} (h : idx l p = .ok a) : l[p]? = some a := by
  unfold idx at h
  rw [if_pos (by omega), Int.toNat_natCast] at h
  cases h1 : l[p]? with
  | none => rw [h1] at h; cases h
  | some b => rw [h1] at h; cases h; rfl

theorem place_ticking {s : State} {ptr : Ptr} {key : Bytes} {ke : Option Err} {n q p : Nat} {r : State × Output}
    (ht : s.timeout = true) (hn : NoFired s) (hl : s.pipes.lookup key = some p)
    (hk : ∀ k' p', k' ≠ key → s.pipes.lookup k' = some p' → p' ≠ p ∧ Kept s k' p')
    (h : place s ptr key ke n q p = .ok r) : Ticking r.1 := by
  have hn1 := (place_strip true s ptr key ke n q p).2 r h hn
  unfold place at h
  obtain ⟨pipe, h0, h⟩ := bind_eq_ok.1 h
  replace h0 := idx_some h0
  have hlt : p < s.heap.length := (List.getElem?_eq_some_iff.1 h0).1
  by_cases h1 : q - 1 < pipe.segments.length
  · simp only [if_pos h1] at h
    by_cases h2 : pipe.frags + 1 = n
    · simp only [if_pos h2] at h
      cases h
      refine ⟨ht, hn1, fun _ k' p' hl' => ?_⟩
      replace hl' : (mapDelete s.pipes key).lookup k' = some p' := hl'
      rw [lookup_delete] at hl'
      by_cases h3 : k' = key
      · rw [if_pos h3] at hl'; cases hl'
      · rw [if_neg h3] at hl'
        obtain ⟨h4, pipe', tid, h5, h6, h7⟩ := hk k' p' h3 hl'
        refine ⟨pipe', tid, ?_, h6, h7⟩
        show (s.heap.set p _)[p']? = _
        rw [List.getElem?_set_ne (fun h => h4 h.symm), h5]
    · simp only [if_neg h2, if_pos ht] at h
      cases h
      refine ⟨ht, hn1, fun _ k' p' hl' => ?_⟩
      replace hl' : s.pipes.lookup k' = some p' := hl'
      by_cases h3 : k' = key
      · subst h3
        rw [hl] at hl'; cases hl'
        refine ⟨{ pipe with segments := pipe.segments.set (q - 1) (some ptr), frags := pipe.frags + 1,
                            cleanup := some s.timers.length }, s.timers.length, ?_, rfl, ?_⟩
        · show (s.heap.set p _)[p]? = _
          rw [List.getElem?_set_self hlt]
        · show (s.timers ++ [_])[s.timers.length]? = _
          simp
      · obtain ⟨h4, pipe', tid, h5, h6, h7⟩ := hk k' p' h3 hl'
        refine ⟨pipe', tid, ?_, h6, ?_⟩
        · show (s.heap.set p _)[p']? = _
          rw [List.getElem?_set_ne (fun h => h4 h.symm), h5]
        · show (s.timers ++ [_])[tid]? = _
          rw [List.getElem?_append_left (List.getElem?_eq_some_iff.1 h7).1, h7]
  · simp only [if_neg h1] at h; cases h

theorem placeNew_ticking {s : State} {ptr : Ptr} {key : Bytes} {ke : Option Err} {n q : Nat} {r : State × Output}
    (ht : s.timeout = true) (hn : NoFired s) (hk : ∀ k' p', k' ≠ key → s.pipes.lookup k' = some p' → Kept s k' p')
    (h : placeNew s ptr key ke n q = .ok r) : Ticking r.1 := by
  unfold placeNew at h
  refine place_ticking (s := { s with
    pipes := mapSet s.pipes key s.heap.length, heap := s.heap ++ [⟨none, List.replicate n none, 0⟩] }) ht hn ?_ ?_ h
  · show (mapSet s.pipes key s.heap.length).lookup key = _
    rw [lookup_set, if_pos rfl]
  · intro k' p' h1 h2
    replace h2 : (mapSet s.pipes key s.heap.length).lookup k' = some p' := h2
    rw [lookup_set, if_neg h1] at h2
    obtain ⟨pipe', tid, h5, h6, h7⟩ := hk k' p' h1 h2
    have hlt := (List.getElem?_eq_some_iff.1 h5).1
    refine ⟨by omega, pipe', tid, ?_, h6, h7⟩
    show (s.heap ++ [_])[p']? = _
    rw [List.getElem?_append_left hlt, h5]

theorem collect_strip (h0 : Bool) (s : State) (hi : Ticking s) (t : TPDU) :
    Collect (strip h0 s) t = (Collect s t).map (fun r => (strip h0 r.1, r.2)) ∧
    ∀ r, Collect s t = .ok r → Ticking r.1 := by
  unfold Collect
  have hn1 : Ticking { s with calls := s.calls + 1 } := ⟨hi.timeout, hi.fine, hi.kept⟩
  show ((if s.closed = true then _ else _) = _) ∧ _
  by_cases h1 : s.closed = true
  · simp only [if_pos h1]
    exact ⟨rfl, fun r hr => by cases hr; exact hn1⟩
  · simp only [if_neg h1]
    have hkept := hi.kept (by simpa using h1)
    cases t.ConcatInfo with
    | none => exact ⟨rfl, fun r hr => by cases hr; exact hn1⟩
    | some ci =>
      simp only
      by_cases h2 : ci.segments < 2
      · simp only [if_pos h2]
        exact ⟨rfl, fun r hr => by cases hr; exact hn1⟩
      · simp only [if_neg h2]
        by_cases h3 : ci.seqno < 1 ∨ ci.seqno > ci.segments
        · simp only [if_pos h3]
          exact ⟨rfl, fun r hr => by cases hr; exact hn1⟩
        · simp only [if_neg h3]
          have hp : (strip h0 s).pipes = s.pipes := rfl
          rw [hp]
          cases hl : s.pipes.lookup (pduKey t ci.segments ci.mref).1 with
          | none =>
            have := placeNew_strip h0 { s with calls := s.calls + 1 } ⟨s.calls, t⟩ (pduKey t ci.segments ci.mref).1
              (pduKey t ci.segments ci.mref).2 ci.segments ci.seqno
            exact ⟨this.1, fun r hr => placeNew_ticking (s := { s with calls := s.calls + 1 }) hi.timeout hi.fine
              (fun k' p' _ h => hkept k' p' h) hr⟩
          | some p =>
            simp only
            obtain ⟨pipe, tid, hpipe, hcl, htid⟩ := hkept _ _ hl
            have e : idx (strip h0 s).heap p = (idx s.heap p).map bare := idx_map bare s.heap p
            have e0 : idx s.heap p = .ok pipe := by
              unfold idx
              rw [if_pos (by omega), Int.toNat_natCast, hpipe]
            rw [e, e0]
            simp only [Except.map, ok_bind]
            show ((idx pipe.segments _ >>= _) = _) ∧ _
            cases idx pipe.segments (ci.seqno - 1 : Nat) with
            | error f => exact ⟨rfl, fun r hr => by cases hr⟩
            | ok cur =>
              simp only [ok_bind]
              by_cases h4 : cur.isSome = true
              · simp only [if_pos h4]
                exact ⟨rfl, fun r hr => by cases hr; exact hn1⟩
              · simp only [if_neg h4]
                have hstop : (stopTimer s.timers tid).1 = true := by
                  unfold stopTimer
                  rw [htid]
                  rfl
                simp only [bare, hcl, hstop]
                have := place_strip h0 { s with calls := s.calls + 1, timers := (stopTimer s.timers tid).2 } ⟨s.calls, t⟩
                  (pduKey t ci.segments ci.mref).1 (pduKey t ci.segments ci.mref).2 ci.segments ci.seqno p
                refine ⟨this.1, fun r hr => place_ticking
                  (s := { s with calls := s.calls + 1, timers := (stopTimer s.timers tid).2 }) hi.timeout (stop_noFired hi.fine tid) hl
                  (fun k' p' h5 h6 => ?_) hr⟩
                obtain ⟨pipe', tid', h7, h8, h9⟩ := hkept k' p' h6
                refine ⟨fun h => ?_, pipe', tid', h7, h8, ?_⟩
                · subst h
                  rw [hpipe] at h7; cases h7
                  rw [hcl] at h8; cases h8
                  rw [htid] at h9; cases h9
                  exact h5 rfl
                · refine (stopTimer_get _ _ _ _).2 ⟨_, h9, ?_⟩
                  rw [if_neg]
                  rintro ⟨h, _⟩
                  subst h
                  rw [htid] at h9; cases h9
                  exact h5 rfl

theorem stopAll_noFired (heap : List Pipe) : ∀ (ps : List (Bytes × Nat)) (s : State), NoFired s →
    NoFired { s with timers := stopAll heap ps s.timers } := by
  intro ps
  induction ps with
  | nil => intro s hn; exact hn
  | cons x ps ih =>
    intro s hn
    obtain ⟨k, p⟩ := x
    unfold stopAll
    cases heap[p]? with
    | none => exact ih s hn
    | some pipe =>
      simp only
      cases pipe.cleanup with
      | none => exact ih s hn
      | some tid => exact ih _ (stop_noFired hn tid)

theorem stopAll_nil (heap : List Pipe) : ∀ (ps : List (Bytes × Nat)), stopAll heap ps [] = [] := by
  intro ps
  induction ps with
  | nil => rfl
  | cons x ps ih =>
    obtain ⟨k, p⟩ := x
    unfold stopAll
    cases heap[p]? with
    | none => exact ih
    | some pipe =>
      simp only
      cases pipe.cleanup with
      | none => exact ih
      | some tid => exact ih

theorem step_strip (h0 : Bool) (s : State) (hi : Ticking s) (e : Event) (he : ∀ i, e ≠ .fire i) :
    step (strip h0 s) e = (step s e).map (fun r => (strip h0 r.1, r.2)) ∧ ∀ r, step s e = .ok r → Ticking r.1 := by
  have hn := hi.fine
  cases e with
  | collect t => exact collect_strip h0 s hi t
  | fire i => exact absurd rfl (he i)
  | expire i =>
    have hs : expire s i = s := by
      unfold expire
      cases h : s.timers[i]? with
      | none => rfl
      | some t =>
        simp only
        rw [if_neg]
        rcases hn t (List.mem_of_getElem? h) with h' | h' <;> rw [h'] <;> decide
    show (Except.ok (strip h0 s, Output.silent) = Except.ok (strip h0 (expire s i), Output.silent)) ∧ ∀ r, Except.ok (expire s i, Output.silent) = Except.ok r → Ticking r.1
    rw [hs]
    exact ⟨rfl, fun r hr => by cases hr; exact hi⟩
  | handle i =>
    have hs : handle s i = (s, .silent) := by
      unfold handle
      cases h : s.timers[i]? with
      | none => rfl
      | some t =>
        simp only
        rw [if_neg]
        rcases hn t (List.mem_of_getElem? h) with h' | h' <;> rw [h'] <;> decide
    show (Except.ok (strip h0 s, Output.silent) = Except.map _ (Except.ok (handle s i))) ∧ ∀ r, Except.ok (handle s i) = Except.ok r → Ticking r.1
    rw [hs]
    exact ⟨rfl, fun r hr => by cases hr; exact hi⟩
  | close =>
    show (Except.ok (Close (strip h0 s), Output.silent) = Except.ok (strip h0 (Close s), Output.silent)) ∧ ∀ r, Except.ok (Close s, Output.silent) = Except.ok r → Ticking r.1
    unfold Close
    have hc : (strip h0 s).closed = s.closed := rfl
    rw [hc]
    by_cases h1 : s.closed = true
    · rw [if_pos h1, if_pos h1]
      exact ⟨rfl, fun r hr => by cases hr; exact hi⟩
    · rw [if_neg h1, if_neg h1]
      refine ⟨?_, fun r hr => ?_⟩
      · have : stopAll (strip h0 s).heap (strip h0 s).pipes (strip h0 s).timers = [] := stopAll_nil _ _
        rw [this]
        rfl
      · cases hr
        exact ⟨hi.timeout, stopAll_noFired s.heap s.pipes s hn, fun h => by cases h⟩

theorem run_strip (h0 : Bool) : ∀ (es : List Event) (s : State), Ticking s → (∀ e ∈ es, ∀ i, e ≠ .fire i) →
    run (strip h0 s) es = (run s es).map (fun r => (strip h0 r.1, r.2)) := by
  intro es
  induction es with
  | nil => intro s _ _; rfl
  | cons e es ih =>
    intro s hi he
    obtain ⟨h1, h2⟩ := step_strip h0 s hi e (he e List.mem_cons_self)
    rw [run, run, h1]
    cases hs : step s e with
    | error f => rfl
    | ok r =>
      have h3 := ih r.1 (h2 r hs) (fun e' he' => he e' (List.mem_cons_of_mem _ he'))
      show (run (strip h0 r.1) es >>= _) = Except.map _ (run r.1 es >>= _)
      rw [h3]
      cases run r.1 es <;> rfl

/-! ### The handler -/

/-- The Collector without its handler. -/
def deaf (s : State) : State := { s with handler := false }

/-- What is left of an output if there is no handler. -/
def unheard : Output → Output
  | .handled _ => .silent
  | o => o

/-- A step without the handler, from the step with it. -/
def hush (r : State × Output) : State × Output := (deaf r.1, unheard r.2)

theorem place_deaf (s : State) (ptr : Ptr) (key : Bytes) (ke : Option Err) (n q p : Nat) :
    place (deaf s) ptr key ke n q p = (place s ptr key ke n q p).map hush := by
  unfold place
  show (idx s.heap p >>= _) = _
  cases idx s.heap p with
  | error f => rfl
  | ok pipe =>
    simp only [ok_bind]
    by_cases h1 : q - 1 < pipe.segments.length
    · simp only [if_pos h1]
      by_cases h2 : pipe.frags + 1 = n
      · simp only [if_pos h2]; rfl
      · simp only [if_neg h2]
        show (if s.timeout = true then _ else _) = _
        by_cases h3 : s.timeout = true
        · simp only [if_pos h3]; rfl
        · simp only [if_neg h3]; rfl
    · simp only [if_neg h1]; rfl

theorem placeNew_deaf (s : State) (ptr : Ptr) (key : Bytes) (ke : Option Err) (n q : Nat) :
    placeNew (deaf s) ptr key ke n q = (placeNew s ptr key ke n q).map hush := by
  unfold placeNew
  rw [← place_deaf]
  rfl

theorem collect_deaf (s : State) (t : TPDU) : Collect (deaf s) t = (Collect s t).map hush := by
  unfold Collect
  show (if s.closed = true then _ else _) = _
  by_cases h1 : s.closed = true
  · simp only [if_pos h1]; rfl
  · simp only [if_neg h1]
    cases t.ConcatInfo with
    | none => rfl
    | some ci =>
      simp only
      by_cases h2 : ci.segments < 2
      · simp only [if_pos h2]; rfl
      · simp only [if_neg h2]
        by_cases h3 : ci.seqno < 1 ∨ ci.seqno > ci.segments
        · simp only [if_pos h3]; rfl
        · simp only [if_neg h3]
          have hp : (deaf s).pipes = s.pipes := rfl
          rw [hp]
          cases s.pipes.lookup (pduKey t ci.segments ci.mref).1 with
          | none => exact placeNew_deaf { s with calls := s.calls + 1 } _ _ _ _ _
          | some p =>
            simp only
            show (idx s.heap p >>= _) = _
            cases idx s.heap p with
            | error f => rfl
            | ok pipe =>
              simp only [ok_bind]
              cases idx pipe.segments (ci.seqno - 1 : Nat) with
              | error f => rfl
              | ok cur =>
                simp only [ok_bind]
                by_cases h4 : cur.isSome = true
                · simp only [if_pos h4]; rfl
                · simp only [if_neg h4]
                  cases pipe.cleanup with
                  | none => exact place_deaf { s with calls := s.calls + 1 } _ _ _ _ _ _
                  | some tid =>
                    simp only
                    show (if (stopTimer s.timers tid).1 = true then _ else _) = _
                    by_cases h5 : (stopTimer s.timers tid).1 = true
                    · simp only [if_pos h5]
                      exact place_deaf { s with calls := s.calls + 1, timers := (stopTimer s.timers tid).2 } _ _ _ _ _ _
                    · simp only [if_neg h5]
                      exact placeNew_deaf { s with calls := s.calls + 1, timers := (stopTimer s.timers tid).2 } _ _ _ _ _

theorem step_deaf (s : State) (e : Event) : step (deaf s) e = (step s e).map hush := by
  cases e with
  | collect t => exact collect_deaf s t
  | fire i =>
    show Except.ok (fire (deaf s) i, Output.silent) = Except.ok (deaf (fire s i), Output.silent)
    unfold fire
    show Except.ok ((match s.timers[i]? with | some t => _ | none => _), _) = _
    cases s.timers[i]? with
    | none => rfl
    | some t => simp only; split <;> rfl
  | expire i =>
    show Except.ok (expire (deaf s) i, Output.silent) = Except.ok (deaf (expire s i), Output.silent)
    unfold expire
    show Except.ok ((match s.timers[i]? with | some t => _ | none => _), _) = _
    cases s.timers[i]? with
    | none => rfl
    | some t => simp only; split <;> rfl
  | handle i =>
    show Except.ok (handle (deaf s) i) = Except.ok (hush (handle s i))
    unfold handle
    show Except.ok (match s.timers[i]? with | some t => _ | none => _) = _
    cases s.timers[i]? with
    | none => rfl
    | some t =>
      simp only
      by_cases h : t.state = .expired
      · simp only [if_pos h]
        by_cases h2 : s.handler = true
        · simp only [if_pos h2]; rfl
        · simp only [if_neg h2]; rfl
      · simp only [if_neg h]; rfl
  | close =>
    show Except.ok (Close (deaf s), Output.silent) = Except.ok (deaf (Close s), Output.silent)
    unfold Close
    show Except.ok ((if s.closed = true then _ else _), _) = _
    by_cases h : s.closed = true
    · simp only [if_pos h]
    · simp only [if_neg h]; rfl

theorem run_deaf : ∀ (es : List Event) (s : State),
    run (deaf s) es = (run s es).map (fun r => (deaf r.1, r.2.map unheard)) := by
  intro es
  induction es with
  | nil => intro s; rfl
  | cons e es ih =>
    intro s
    rw [run, run, step_deaf]
    cases step s e with
    | error f => rfl
    | ok r =>
      obtain ⟨s1, o⟩ := r
      show (run (deaf s1) es >>= _) = Except.map _ (run s1 es >>= _)
      rw [ih]
      cases run s1 es <;> rfl

end Verif.Proofs.Idle
