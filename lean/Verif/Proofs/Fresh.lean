import Verif.Spec.Fresh
import Verif.Proofs.Ignored
import Verif.Proofs.CollInv

namespace Verif.Proofs.Fresh
open Verif.Model Verif.Model.Collector Verif.Spec
open Verif.Proofs.Ignored (idx_map)
open Verif.Proofs.Coll

/-- Timers are numbered from `n` on. -/
def laterEvent (n : Nat) : Event → Event
  | .fire i => .fire (i + n)
  | .expire i => .expire (i + n)
  | .handle i => .handle (i + n)
  | e => e

def pipeOn (s : State) (p : Pipe) : Pipe :=
  { p with cleanup := p.cleanup.map (· + s.timers.length), segments := p.segments.map (·.map (laterPtr s.calls)) }
def timerOn (s : State) (t : Timer) : Timer := { t with pipe := t.pipe + s.heap.length }
def entryOn (s : State) (e : Bytes × Nat) : Bytes × Nat := (e.1, e.2 + s.heap.length)

/-- The Collector `a`, begun on what was left by `s`. -/
def onto (s a : State) : State where
  pipes := a.pipes.map (entryOn s)
  heap := s.heap ++ a.heap.map (pipeOn s)
  timers := s.timers ++ a.timers.map (timerOn s)
  closed := a.closed
  timeout := a.timeout
  handler := a.handler
  calls := a.calls + s.calls

def stepOn (s : State) (r : State × Output) : State × Output := (onto s r.1, laterOutput s.calls r.2)

theorem onto_new {s : State} (hp : s.pipes = []) (hc : s.closed = false) : onto s (New s.timeout s.handler) = s := by
  obtain ⟨pipes, heap, timers, closed, timeout, handler, calls⟩ := s
  cases hp; cases hc
  simp [onto, New]

theorem idx_on {α β : Type} (A : List β) (B : List α) (f : α → β) (p : Nat) :
    idx (A ++ B.map f) ((p + A.length : Nat) : Int) = (idx B (p : Int)).map f := by
  unfold idx
  rw [if_pos (by omega), if_pos (by omega), Int.toNat_natCast, Int.toNat_natCast,
    List.getElem?_append_right (by omega), Nat.add_sub_cancel, List.getElem?_map]
  cases B[p]? <;> rfl

theorem get_on {α β : Type} (A : List β) (B : List α) (f : α → β) (p : Nat) :
    (A ++ B.map f)[p + A.length]? = B[p]?.map f := by
  rw [List.getElem?_append_right (by omega), Nat.add_sub_cancel, List.getElem?_map]

theorem set_on {α β : Type} (A : List β) (B : List α) (f : α → β) (p : Nat) (x : α) :
    (A ++ B.map f).set (p + A.length) (f x) = A ++ (B.set p x).map f := by
  rw [List.set_append_right _ _ (by omega), Nat.add_sub_cancel, List.map_set]

theorem lookup_on (s : State) (m : List (Bytes × Nat)) (k : Bytes) :
    (m.map (entryOn s)).lookup k = (m.lookup k).map (· + s.heap.length) := by
  induction m with
  | nil => rfl
  | cons e m ih =>
    rw [List.map_cons, List.lookup_cons, List.lookup_cons, ih]
    show (match k == e.1 with | true => _ | false => _) = _
    cases k == e.1 <;> rfl

theorem delete_on (s : State) (m : List (Bytes × Nat)) (k : Bytes) :
    mapDelete (m.map (entryOn s)) k = (mapDelete m k).map (entryOn s) := by
  unfold mapDelete
  rw [List.filter_map]
  rfl

theorem mapSet_on (s : State) (m : List (Bytes × Nat)) (k : Bytes) (v : Nat) :
    mapSet (m.map (entryOn s)) k (v + s.heap.length) = (mapSet m k v).map (entryOn s) := by
  unfold mapSet
  rw [List.filter_map]
  rfl

theorem stop_on (s : State) (ts : List Timer) (i : Nat) :
    stopTimer (s.timers ++ ts.map (timerOn s)) (i + s.timers.length) =
      ((stopTimer ts i).1, s.timers ++ (stopTimer ts i).2.map (timerOn s)) := by
  unfold stopTimer
  rw [get_on]
  cases ts[i]? with
  | none => rfl
  | some t =>
    simp only [Option.map_some]
    show (if t.state = .armed then _ else _) = _
    by_cases h : t.state = .armed
    · rw [if_pos h, if_pos h]
      exact Prod.ext rfl (set_on s.timers ts (timerOn s) i { t with state := .stopped })
    · rw [if_neg h, if_neg h]

theorem stopAll_on (s : State) (heap : List Pipe) : ∀ (ps : List (Bytes × Nat)) (ts : List Timer),
    stopAll (s.heap ++ heap.map (pipeOn s)) (ps.map (entryOn s)) (s.timers ++ ts.map (timerOn s)) =
      s.timers ++ (stopAll heap ps ts).map (timerOn s) := by
  intro ps
  induction ps with
  | nil => intro ts; rfl
  | cons e ps ih =>
    intro ts
    obtain ⟨k, p⟩ := e
    rw [List.map_cons]
    show stopAll _ ((k, p + s.heap.length) :: _) _ = _
    rw [stopAll, stopAll, get_on]
    cases heap[p]? with
    | none => exact ih ts
    | some pipe =>
      simp only [Option.map_some]
      show (match pipe.cleanup.map (· + s.timers.length) with | some tid => _ | none => _) = _
      cases pipe.cleanup with
      | none => exact ih ts
      | some tid =>
        simp only [Option.map_some]
        rw [stop_on]
        exact ih _

theorem place_on (s a : State) (ptr : Ptr) (key : Bytes) (ke : Option Err) (n q p : Nat) :
    place (onto s a) (laterPtr s.calls ptr) key ke n q (p + s.heap.length) = (place a ptr key ke n q p).map (stepOn s) := by
  unfold place
  show (idx (s.heap ++ a.heap.map (pipeOn s)) _ >>= _) = _
  rw [idx_on]
  cases idx a.heap p with
  | error f => rfl
  | ok pipe =>
    simp only [Except.map, ok_bind]
    have hl : (pipeOn s pipe).segments.length = pipe.segments.length := List.length_map ..
    have hseg : (pipeOn s pipe).segments.set (q - 1) (some (laterPtr s.calls ptr)) =
        (pipe.segments.set (q - 1) (some ptr)).map (·.map (laterPtr s.calls)) := by
      rw [List.map_set]; rfl
    have hf : (pipeOn s pipe).frags = pipe.frags := rfl
    rw [hl, hseg, hf]
    by_cases h1 : q - 1 < pipe.segments.length
    · simp only [if_pos h1]
      by_cases h2 : pipe.frags + 1 = n
      · simp only [if_pos h2]
        have := set_on s.heap a.heap (pipeOn s) p { pipe with segments := pipe.segments.set (q - 1) (some ptr), frags := pipe.frags + 1 }
        show Except.ok _ = Except.ok _
        simp only [stepOn, onto, laterOutput, delete_on]
        rw [← this]
        rfl
      · simp only [if_neg h2]
        show (if a.timeout = true then _ else _) = _
        by_cases h3 : a.timeout = true
        · simp only [if_pos h3]
          have := set_on s.heap a.heap (pipeOn s) p { pipe with
            segments := pipe.segments.set (q - 1) (some ptr), frags := pipe.frags + 1, cleanup := some a.timers.length }
          show Except.ok _ = Except.ok _
          simp only [stepOn, onto, laterOutput]
          rw [← this]
          simp [pipeOn, timerOn, Nat.add_comm]
        · simp only [if_neg h3]
          have := set_on s.heap a.heap (pipeOn s) p { pipe with segments := pipe.segments.set (q - 1) (some ptr), frags := pipe.frags + 1 }
          show Except.ok _ = Except.ok _
          simp only [stepOn, onto, laterOutput]
          rw [← this]
          rfl
    · simp only [if_neg h1]; rfl

theorem placeNew_on (s a : State) (ptr : Ptr) (key : Bytes) (ke : Option Err) (n q : Nat) :
    placeNew (onto s a) (laterPtr s.calls ptr) key ke n q = (placeNew a ptr key ke n q).map (stepOn s) := by
  unfold placeNew
  rw [← place_on]
  have hl : (onto s a).heap.length = a.heap.length + s.heap.length := by simp [onto, Nat.add_comm]
  rw [hl]
  congr 1
  simp only [onto, mapSet_on]
  simp [pipeOn]

theorem collect_on (s a : State) (t : TPDU) : Collect (onto s a) t = (Collect a t).map (stepOn s) := by
  unfold Collect
  have hptr : (⟨(onto s a).calls, t⟩ : Ptr) = laterPtr s.calls ⟨a.calls, t⟩ := rfl
  have hcalls : ∀ ts, ({ onto s a with calls := (onto s a).calls + 1, timers := s.timers ++ ts.map (timerOn s) } : State) =
      onto s { a with calls := a.calls + 1, timers := ts } := by
    intro ts
    simp only [onto]
    congr 1
    omega
  have hcall : ({ onto s a with calls := (onto s a).calls + 1 } : State) = onto s { a with calls := a.calls + 1 } := hcalls a.timers
  rw [hptr, hcall]
  show (if a.closed = true then _ else _) = _
  by_cases h1 : a.closed = true
  · simp only [if_pos h1]; rfl
  · simp only [if_neg h1]
    cases t.ConcatInfo with
    | none => rfl
    | some ci =>
      simp only
      by_cases h2 : ci.segments < 2
      · simp only [if_pos h2]; rfl
      · simp only [if_neg h2]
        by_cases h3 : ci.seqno < 1 ∨ ci.seqno > ci.segments
        · simp only [if_pos h3]; rfl
        · simp only [if_neg h3]
          have hp : (onto s { a with calls := a.calls + 1 }).pipes = a.pipes.map (entryOn s) := rfl
          rw [hp, lookup_on]
          cases a.pipes.lookup (pduKey t ci.segments ci.mref).1 with
          | none => exact placeNew_on s { a with calls := a.calls + 1 } _ _ _ _ _
          | some p =>
            simp only [Option.map_some]
            have hh : (onto s { a with calls := a.calls + 1 }).heap = s.heap ++ a.heap.map (pipeOn s) := rfl
            rw [hh, idx_on]
            cases idx a.heap p with
            | error f => rfl
            | ok pipe =>
              simp only [Except.map, ok_bind]
              have hs : idx (pipeOn s pipe).segments ((ci.seqno - 1 : Nat) : Int) =
                  (idx pipe.segments ((ci.seqno - 1 : Nat) : Int)).map (·.map (laterPtr s.calls)) := idx_map _ _ _
              rw [hs]
              cases idx pipe.segments ((ci.seqno - 1 : Nat) : Int) with
              | error f => rfl
              | ok cur =>
                simp only [Except.map, ok_bind]
                have hi : (cur.map (laterPtr s.calls)).isSome = cur.isSome := by cases cur <;> rfl
                rw [hi]
                by_cases h4 : cur.isSome = true
                · simp only [if_pos h4]; rfl
                · simp only [if_neg h4]
                  have hc : (pipeOn s pipe).cleanup = pipe.cleanup.map (· + s.timers.length) := rfl
                  rw [hc]
                  cases pipe.cleanup with
                  | none => exact place_on s { a with calls := a.calls + 1 } _ _ _ _ _ _
                  | some tid =>
                    simp only [Option.map_some]
                    have ht : (onto s { a with calls := a.calls + 1 }).timers = s.timers ++ a.timers.map (timerOn s) := rfl
                    rw [ht, stop_on]
                    simp only
                    have hst := hcalls (stopTimer a.timers tid).2
                    by_cases h5 : (stopTimer a.timers tid).1 = true
                    · simp only [if_pos h5]
                      exact place_on s { a with calls := a.calls + 1, timers := (stopTimer a.timers tid).2 } _ _ _ _ _ _
                    · simp only [if_neg h5]
                      exact placeNew_on s { a with calls := a.calls + 1, timers := (stopTimer a.timers tid).2 } _ _ _ _ _

theorem deref_on (s a : State) (p : Nat) : deref (onto s a) (p + s.heap.length) = (deref a p).map (·.map (laterPtr s.calls)) := by
  unfold deref
  show (((s.heap ++ a.heap.map (pipeOn s))[p + s.heap.length]?).map (·.segments)).getD [] = _
  rw [get_on]
  cases a.heap[p]? <;> rfl

theorem setTimers_on (s a : State) (i : Nat) (t : Timer) :
    (s.timers ++ a.timers.map (timerOn s)).set (i + s.timers.length) (timerOn s t) = s.timers ++ (a.timers.set i t).map (timerOn s) :=
  set_on _ _ _ _ _

theorem step_on (s a : State) (e : Event) : step (onto s a) (laterEvent s.timers.length e) = (step a e).map (stepOn s) := by
  cases e with
  | collect t => exact collect_on s a t
  | fire i =>
    show Except.ok (fire (onto s a) (i + s.timers.length), Output.silent) = Except.ok (onto s (fire a i), Output.silent)
    unfold fire
    have ht : (onto s a).timers = s.timers ++ a.timers.map (timerOn s) := rfl
    rw [ht, get_on]
    cases a.timers[i]? with
    | none => rfl
    | some t =>
      simp only [Option.map_some]
      show Except.ok ((if t.state = .armed then _ else _), _) = _
      by_cases h : t.state = .armed
      · simp only [if_pos h]
        have := setTimers_on s a i { t with state := .fired }
        simp only [onto]
        rw [← this]
        rfl
      · simp only [if_neg h]
  | expire i =>
    show Except.ok (expire (onto s a) (i + s.timers.length), Output.silent) = Except.ok (onto s (expire a i), Output.silent)
    unfold expire
    have ht : (onto s a).timers = s.timers ++ a.timers.map (timerOn s) := rfl
    rw [ht, get_on]
    cases a.timers[i]? with
    | none => rfl
    | some t =>
      simp only [Option.map_some]
      show Except.ok ((if t.state = .fired then _ else _), _) = _
      by_cases h : t.state = .fired
      · simp only [if_pos h]
        have := setTimers_on s a i { t with state := .expired }
        have hp : (onto s a).pipes = a.pipes.map (entryOn s) := rfl
        have hiff : ((a.pipes.lookup t.key).map (· + s.heap.length) = some (t.pipe + s.heap.length)) ↔ a.pipes.lookup t.key = some t.pipe := by
          cases a.pipes.lookup t.key <;> simp
        rw [hp, lookup_on]
        show Except.ok (({ onto s a with
          pipes := if (a.pipes.lookup t.key).map (· + s.heap.length) = some (t.pipe + s.heap.length) then
            mapDelete (a.pipes.map (entryOn s)) t.key else a.pipes.map (entryOn s)
          timers := (s.timers ++ a.timers.map (timerOn s)).set (i + s.timers.length) (timerOn s { t with state := .expired }) } : State), _) = _
        rw [this, delete_on]
        by_cases h2 : a.pipes.lookup t.key = some t.pipe
        · rw [if_pos (hiff.2 h2)]; simp only [if_pos h2]; rfl
        · rw [if_neg (fun x => h2 (hiff.1 x))]; simp only [if_neg h2]; rfl
      · simp only [if_neg h]
  | handle i =>
    show Except.ok (handle (onto s a) (i + s.timers.length)) = Except.ok (stepOn s (handle a i))
    unfold handle
    have ht : (onto s a).timers = s.timers ++ a.timers.map (timerOn s) := rfl
    rw [ht, get_on]
    cases a.timers[i]? with
    | none => rfl
    | some t =>
      simp only [Option.map_some]
      show Except.ok (if t.state = .expired then _ else _) = _
      by_cases h : t.state = .expired
      · simp only [if_pos h]
        have := setTimers_on s a i { t with state := .done }
        show Except.ok (({ onto s a with
          timers := (s.timers ++ a.timers.map (timerOn s)).set (i + s.timers.length) (timerOn s { t with state := .done }) } : State),
          if a.handler = true then Output.handled (deref (onto s a) (t.pipe + s.heap.length)) else Output.silent) = _
        rw [this, deref_on]
        by_cases h2 : a.handler = true
        · simp only [if_pos h2]; rfl
        · simp only [if_neg h2]; rfl
      · simp only [if_neg h]; rfl
  | close =>
    show Except.ok (Close (onto s a), Output.silent) = Except.ok (onto s (Close a), Output.silent)
    unfold Close
    show Except.ok ((if a.closed = true then _ else _), _) = _
    by_cases h : a.closed = true
    · simp only [if_pos h]
    · simp only [if_neg h]
      show Except.ok (({ onto s a with
        closed := true
        timers := stopAll (s.heap ++ a.heap.map (pipeOn s)) (a.pipes.map (entryOn s)) (s.timers ++ a.timers.map (timerOn s)) } : State), _) = _
      rw [stopAll_on]
      rfl

theorem run_on (s : State) : ∀ (es : List Event) (a : State),
    run (onto s a) (es.map (laterEvent s.timers.length)) =
      (run a es).map (fun r => (onto s r.1, r.2.map (laterOutput s.calls))) := by
  intro es
  induction es with
  | nil => intro a; rfl
  | cons e es ih =>
    intro a
    rw [List.map_cons, run, run, step_on]
    cases step a e with
    | error f => rfl
    | ok r =>
      obtain ⟨a1, o⟩ := r
      show (run (onto s a1) _ >>= _) = Except.map _ (run a1 es >>= _)
      rw [ih]
      cases run a1 es <;> rfl

/-! ### What was before -/

/-- The callbacks of the timers have pipes that were made. -/
def TimersIn (s : State) : Prop := ∀ t ∈ s.timers, t.pipe < s.heap.length

/-- What a step leaves as it is. -/
structure Keeps (s s' : State) (n : Nat) : Prop where
  timers : TimersIn s → TimersIn s'
  timeout : s'.timeout = s.timeout
  handler : s'.handler = s.handler
  calls : s'.calls = s.calls + n

theorem place_keeps {s : State} {ptr : Ptr} {key : Bytes} {ke : Option Err} {n q p : Nat} {r : State × Output}
    (h : place s ptr key ke n q p = .ok r) : Keeps s r.1 0 ∧ r.1.closed = s.closed := by
  unfold place at h
  obtain ⟨pipe, h0, h⟩ := bind_eq_ok.1 h
  have hlt : p < s.heap.length := by
    unfold idx at h0
    rw [if_pos (by omega), Int.toNat_natCast] at h0
    cases h1 : s.heap[p]? with
    | none => rw [h1] at h0; cases h0
    | some b => exact (List.getElem?_eq_some_iff.1 h1).1
  by_cases h1 : q - 1 < pipe.segments.length
  · simp only [if_pos h1] at h
    by_cases h2 : pipe.frags + 1 = n
    · simp only [if_pos h2] at h
      cases h
      exact ⟨⟨fun ht t hm => by simpa using ht t hm, rfl, rfl, rfl⟩, rfl⟩
    · simp only [if_neg h2] at h
      by_cases h3 : s.timeout = true
      · simp only [if_pos h3] at h
        cases h
        refine ⟨⟨fun ht t hm => ?_, rfl, rfl, rfl⟩, rfl⟩
        rcases List.mem_append.1 hm with hm | hm
        · simpa using ht t hm
        · rw [List.mem_singleton.1 hm]; simpa using hlt
      · simp only [if_neg h3] at h
        cases h
        exact ⟨⟨fun ht t hm => by simpa using ht t hm, rfl, rfl, rfl⟩, rfl⟩
  · simp only [if_neg h1] at h; cases h

theorem placeNew_keeps {s : State} {ptr : Ptr} {key : Bytes} {ke : Option Err} {n q : Nat} {r : State × Output}
    (h : placeNew s ptr key ke n q = .ok r) : Keeps s r.1 0 ∧ r.1.closed = s.closed := by
  unfold placeNew at h
  obtain ⟨h1, h2⟩ := place_keeps h
  refine ⟨⟨fun ht => h1.timers (fun t hm => ?_), h1.timeout, h1.handler, h1.calls⟩, h2⟩
  have := ht t hm
  simp only [List.length_append, List.length_singleton]
  omega

theorem stop_pipe (ts : List Timer) (i : Nat) (t : Timer) (h : t ∈ (stopTimer ts i).2) : ∃ t0 ∈ ts, t.pipe = t0.pipe := by
  unfold stopTimer at h
  cases h1 : ts[i]? with
  | none => rw [h1] at h; exact ⟨t, h, rfl⟩
  | some t0 =>
    rw [h1] at h
    simp only at h
    by_cases h2 : t0.state = .armed
    · rw [if_pos h2] at h
      rcases List.mem_or_eq_of_mem_set h with h | h
      · exact ⟨t, h, rfl⟩
      · exact ⟨t0, List.mem_of_getElem? h1, by rw [h]⟩
    · rw [if_neg h2] at h; exact ⟨t, h, rfl⟩

theorem stopAll_pipe (heap : List Pipe) : ∀ (ps : List (Bytes × Nat)) (ts : List Timer) (t : Timer), t ∈ stopAll heap ps ts →
    ∃ t0 ∈ ts, t.pipe = t0.pipe := by
  intro ps
  induction ps with
  | nil => intro ts t h; exact ⟨t, h, rfl⟩
  | cons e ps ih =>
    intro ts t h
    obtain ⟨k, p⟩ := e
    unfold stopAll at h
    cases h1 : heap[p]? with
    | none => rw [h1] at h; exact ih ts t h
    | some pipe =>
      rw [h1] at h
      simp only at h
      cases h2 : pipe.cleanup with
      | none => rw [h2] at h; exact ih ts t h
      | some tid =>
        rw [h2] at h
        obtain ⟨t1, h3, h4⟩ := ih _ t h
        obtain ⟨t0, h5, h6⟩ := stop_pipe ts tid t1 h3
        exact ⟨t0, h5, h4.trans h6⟩

theorem collect_keeps {s : State} {t : TPDU} {r : State × Output} (h : Collect s t = .ok r) :
    Keeps s r.1 1 ∧ r.1.closed = s.closed := by
  have hsame : Keeps s { s with calls := s.calls + 1 } 1 ∧ s.closed = s.closed := ⟨⟨fun h => h, rfl, rfl, rfl⟩, rfl⟩
  have hup : ∀ {ts : List Timer} {q : State}, (∀ t ∈ ts, ∃ t0 ∈ s.timers, t.pipe = t0.pipe) →
      Keeps { s with calls := s.calls + 1, timers := ts } q 0 ∧ q.closed = s.closed → Keeps s q 1 ∧ q.closed = s.closed := by
    intro ts q h1 h2
    refine ⟨⟨fun ht => h2.1.timers (fun t hm => ?_), h2.1.timeout, h2.1.handler, h2.1.calls⟩, h2.2⟩
    obtain ⟨t0, h3, h4⟩ := h1 t hm
    rw [h4]
    exact ht t0 h3
  have hid : ∀ t ∈ s.timers, ∃ t0 ∈ s.timers, t.pipe = t0.pipe := fun t h => ⟨t, h, rfl⟩
  unfold Collect at h
  simp only at h
  by_cases h1 : s.closed = true
  · rw [if_pos h1] at h; cases h; exact hsame
  · rw [if_neg h1] at h
    cases hci : t.ConcatInfo with
    | none => rw [hci] at h; cases h; exact hsame
    | some ci =>
      rw [hci] at h
      simp only at h
      by_cases h2 : ci.segments < 2
      · rw [if_pos h2] at h; cases h; exact hsame
      · rw [if_neg h2] at h
        by_cases h3 : ci.seqno < 1 ∨ ci.seqno > ci.segments
        · rw [if_pos h3] at h; cases h; exact hsame
        · rw [if_neg h3] at h
          cases hl : s.pipes.lookup (pduKey t ci.segments ci.mref).1 with
          | none => rw [hl] at h; exact hup hid (placeNew_keeps h)
          | some p =>
            rw [hl] at h
            obtain ⟨pipe, _, h⟩ := bind_eq_ok.1 h
            obtain ⟨cur, _, h⟩ := bind_eq_ok.1 h
            by_cases h4 : cur.isSome = true
            · rw [if_pos h4] at h; cases h; exact hsame
            · rw [if_neg h4] at h
              cases hcl : pipe.cleanup with
              | none => rw [hcl] at h; exact hup hid (place_keeps h)
              | some tid =>
                rw [hcl] at h
                simp only at h
                by_cases h5 : (stopTimer s.timers tid).1 = true
                · rw [if_pos h5] at h; exact hup (stop_pipe _ _) (place_keeps h)
                · rw [if_neg h5] at h; exact hup (stop_pipe _ _) (placeNew_keeps h)

theorem set_pipe {ts : List Timer} {i : Nat} {t : Timer} (h : ts[i]? = some t) (st : TimerState) :
    ∀ x ∈ ts.set i { t with state := st }, ∃ t0 ∈ ts, x.pipe = t0.pipe := by
  intro x hx
  rcases List.mem_or_eq_of_mem_set hx with hx | hx
  · exact ⟨x, hx, rfl⟩
  · exact ⟨t, List.mem_of_getElem? h, by rw [hx]⟩

/-- How many calls of `Collect` an event is. -/
def callsOf : Event → Nat
  | .collect _ => 1
  | _ => 0

theorem step_keeps {s : State} {e : Event} {r : State × Output} (h : step s e = .ok r) :
    Keeps s r.1 (callsOf e) ∧ (e ≠ .close → r.1.closed = s.closed) := by
  have hin : ∀ {ts : List Timer}, (∀ t ∈ ts, ∃ t0 ∈ s.timers, t.pipe = t0.pipe) → TimersIn s →
      ∀ t ∈ ts, t.pipe < s.heap.length := by
    intro ts h1 ht t hm
    obtain ⟨t0, h3, h4⟩ := h1 t hm
    rw [h4]; exact ht t0 h3
  cases e with
  | collect t => exact ⟨(collect_keeps h).1, fun _ => (collect_keeps h).2⟩
  | fire i =>
    replace h : Except.ok (fire s i, Output.silent) = Except.ok r := h
    cases h
    unfold fire
    cases h1 : s.timers[i]? with
    | none => exact ⟨⟨fun h => h, rfl, rfl, rfl⟩, fun _ => rfl⟩
    | some t =>
      simp only
      split
      · exact ⟨⟨hin (set_pipe h1 _), rfl, rfl, rfl⟩, fun _ => rfl⟩
      · exact ⟨⟨fun h => h, rfl, rfl, rfl⟩, fun _ => rfl⟩
  | expire i =>
    replace h : Except.ok (expire s i, Output.silent) = Except.ok r := h
    cases h
    unfold expire
    cases h1 : s.timers[i]? with
    | none => exact ⟨⟨fun h => h, rfl, rfl, rfl⟩, fun _ => rfl⟩
    | some t =>
      simp only
      by_cases h2 : t.state = .fired
      · simp only [if_pos h2]
        exact ⟨⟨hin (set_pipe h1 _), (by trivial), (by trivial), (by trivial)⟩, fun _ => (by trivial)⟩
      · simp only [if_neg h2]
        exact ⟨⟨fun h => h, (by trivial), (by trivial), (by trivial)⟩, fun _ => (by trivial)⟩
  | handle i =>
    replace h : Except.ok (handle s i) = Except.ok r := h
    cases h
    unfold handle
    cases h1 : s.timers[i]? with
    | none => exact ⟨⟨fun h => h, rfl, rfl, rfl⟩, fun _ => rfl⟩
    | some t =>
      simp only
      by_cases h2 : t.state = .expired
      · simp only [if_pos h2]
        exact ⟨⟨hin (set_pipe h1 _), (by trivial), (by trivial), (by trivial)⟩, fun _ => (by trivial)⟩
      · simp only [if_neg h2]
        exact ⟨⟨fun h => h, (by trivial), (by trivial), (by trivial)⟩, fun _ => (by trivial)⟩
  | close =>
    replace h : Except.ok (Close s, Output.silent) = Except.ok r := h
    cases h
    unfold Close
    by_cases h1 : s.closed = true
    · simp only [if_pos h1]
      exact ⟨⟨fun h => h, (by trivial), (by trivial), (by trivial)⟩, fun h => absurd rfl h⟩
    · simp only [if_neg h1]
      exact ⟨⟨hin (stopAll_pipe _ _ _), (by trivial), (by trivial), (by trivial)⟩, fun h => absurd rfl h⟩

theorem run_keeps : ∀ (es : List Event) (s : State) (r : State × List Output), run s es = .ok r →
    Keeps s r.1 (es.map callsOf).sum ∧ (.close ∉ es → r.1.closed = s.closed) ∧ r.2.length = es.length := by
  intro es
  induction es with
  | nil => intro s r h; cases h; exact ⟨⟨fun h => h, rfl, rfl, rfl⟩, fun _ => rfl, rfl⟩
  | cons e es ih =>
    intro s r h
    rw [run] at h
    obtain ⟨⟨s1, o⟩, h1, h⟩ := bind_eq_ok.1 h
    obtain ⟨⟨s2, os⟩, h2, h⟩ := bind_eq_ok.1 h
    cases h
    obtain ⟨k1, c1⟩ := step_keeps h1
    obtain ⟨k2, c2, l2⟩ := ih s1 _ h2
    refine ⟨⟨fun h => k2.timers (k1.timers h), k2.timeout.trans k1.timeout, k2.handler.trans k1.handler, ?_⟩, fun hn => ?_, ?_⟩
    · rw [k2.calls, k1.calls, List.map_cons, List.sum_cons]; omega
    · rw [c2 (fun h => hn (List.mem_cons_of_mem _ h)), c1 (fun h => hn (by rw [h]; exact List.mem_cons_self))]
    · simp only [List.length_cons] at *; omega

/-! ### Old timers -/

/-- Nothing is held, and the timers are of pipes that were made. -/
structure Idle (s : State) : Prop where
  pipes : s.pipes = []
  timers : TimersIn s

theorem get_left {α : Type} {A B : List α} {i : Nat} (h : i < A.length) : (A ++ B)[i]? = A[i]? := List.getElem?_append_left h

/-- An event of an old timer happens to what was before, as if nothing had followed. -/
theorem step_old {s : State} (hi : Idle s) (a : State) (hh : a.handler = s.handler) (e : Event) (he : isOld s.timers.length e = true) :
    ∃ s1 o, step s e = .ok (s1, o) ∧ step (onto s a) e = .ok (onto s1 a, o) ∧ Idle s1 ∧ s1.timers.length = s.timers.length ∧
      s1.handler = s.handler ∧ s1.calls = s.calls ∧ s1.heap = s.heap := by
  have htim : (onto s a).timers = s.timers ++ a.timers.map (timerOn s) := rfl
  have hset : ∀ i (x : Timer), i < s.timers.length → (s.timers ++ a.timers.map (timerOn s)).set i x =
      s.timers.set i x ++ a.timers.map (timerOn s) := fun i x h => List.set_append_left _ _ h
  have hon : ∀ i (x : Timer), onto { s with timers := s.timers.set i x } a =
      { onto s a with timers := s.timers.set i x ++ a.timers.map (timerOn s) } := by
    intro i x
    simp only [onto]
    have hp : pipeOn { s with timers := s.timers.set i x } = pipeOn s := by
      funext p; simp [pipeOn]
    rw [hp]
    rfl
  have hidle : ∀ {i : Nat} {t : Timer} (st : TimerState), s.timers[i]? = some t →
      Idle { s with timers := s.timers.set i { t with state := st } } := by
    intro i t st ht
    refine ⟨hi.pipes, fun x hx => ?_⟩
    obtain ⟨t0, h1, h2⟩ := set_pipe ht st x hx
    rw [h2]
    exact hi.timers t0 h1
  have hlen : ∀ i (x : Timer), (s.timers.set i x).length = s.timers.length := fun i x => List.length_set ..
  cases e with
  | collect t => cases he
  | close => cases he
  | fire i =>
    have hlt : i < s.timers.length := of_decide_eq_true he
    refine ⟨fire s i, .silent, rfl, ?_⟩
    show Except.ok (fire (onto s a) i, Output.silent) = _ ∧ _
    unfold fire
    rw [htim, get_left hlt]
    cases h1 : s.timers[i]? with
    | none => exact ⟨rfl, hi, rfl, rfl, rfl, rfl⟩
    | some t =>
      simp only
      by_cases h2 : t.state = .armed
      · simp only [if_pos h2]
        rw [hset i _ hlt, hon]
        exact ⟨(by trivial), hidle _ h1, hlen _ _, (by trivial), (by trivial), (by trivial)⟩
      · simp only [if_neg h2]
        exact ⟨(by trivial), hi, (by trivial), (by trivial), (by trivial), (by trivial)⟩
  | expire i =>
    have hlt : i < s.timers.length := of_decide_eq_true he
    refine ⟨expire s i, .silent, rfl, ?_⟩
    show Except.ok (expire (onto s a) i, Output.silent) = _ ∧ _
    unfold expire
    rw [htim, get_left hlt]
    cases h1 : s.timers[i]? with
    | none => exact ⟨rfl, hi, rfl, rfl, rfl, rfl⟩
    | some t =>
      simp only
      by_cases h2 : t.state = .fired
      · simp only [if_pos h2]
        have hno : ¬ (onto s a).pipes.lookup t.key = some t.pipe := by
          show ¬ (a.pipes.map (entryOn s)).lookup t.key = some t.pipe
          rw [lookup_on]
          intro h
          have := hi.timers t (List.mem_of_getElem? h1)
          cases h3 : a.pipes.lookup t.key with
          | none => rw [h3] at h; cases h
          | some p => rw [h3] at h; simp at h; omega
        have hno' : ¬ s.pipes.lookup t.key = some t.pipe := by rw [hi.pipes]; simp
        rw [if_neg hno, if_neg hno', hset i _ hlt, hon]
        exact ⟨(by trivial), hidle _ h1, hlen _ _, (by trivial), (by trivial), (by trivial)⟩
      · simp only [if_neg h2]
        exact ⟨(by trivial), hi, (by trivial), (by trivial), (by trivial), (by trivial)⟩
  | handle i =>
    have hlt : i < s.timers.length := of_decide_eq_true he
    refine ⟨(handle s i).1, (handle s i).2, rfl, ?_⟩
    show Except.ok (handle (onto s a) i) = _ ∧ _
    unfold handle
    rw [htim, get_left hlt]
    cases h1 : s.timers[i]? with
    | none => exact ⟨rfl, hi, rfl, rfl, rfl, rfl⟩
    | some t =>
      simp only
      by_cases h2 : t.state = .expired
      · simp only [if_pos h2]
        have hd : deref (onto s a) t.pipe = deref s t.pipe := by
          unfold deref
          show (((s.heap ++ a.heap.map (pipeOn s))[t.pipe]?).map (·.segments)).getD [] = _
          rw [get_left (hi.timers t (List.mem_of_getElem? h1))]
        rw [hset i _ hlt, hon, hd]
        have hif : (if (onto s a).handler = true then Output.handled (deref s t.pipe) else .silent) =
            if s.handler = true then .handled (deref s t.pipe) else .silent := by
          show (if a.handler = true then _ else _) = _
          rw [hh]
        exact ⟨congrArg (fun o => Except.ok (_, o)) hif, hidle _ h1, hlen _ _, (by trivial), (by trivial), (by trivial)⟩
      · simp only [if_neg h2]
        exact ⟨(by trivial), hi, (by trivial), (by trivial), (by trivial), (by trivial)⟩

theorem new_later (n : Nat) (e : Event) (h : isOld n e = false) : e = laterEvent n (asNew n e) := by
  cases e with
  | collect t => rfl
  | close => rfl
  | fire i => have : ¬ i < n := of_decide_eq_false h; simp only [laterEvent, asNew]; congr 1; omega
  | expire i => have : ¬ i < n := of_decide_eq_false h; simp only [laterEvent, asNew]; congr 1; omega
  | handle i => have : ¬ i < n := of_decide_eq_false h; simp only [laterEvent, asNew]; congr 1; omega

theorem run_split : ∀ (es : List Event) (s a : State), Idle s → a.handler = s.handler →
    match run (onto s a) es with
    | .ok (s', os) => ∃ s1 a1 os1 os2, run s (es.filter (isOld s.timers.length)) = .ok (s1, os1) ∧
        run a (newEvents s.timers.length es) = .ok (a1, os2) ∧ s' = onto s1 a1 ∧
        outputsOf true s.timers.length es os = os1 ∧ outputsOf false s.timers.length es os = os2.map (laterOutput s.calls)
    | .error f => run a (newEvents s.timers.length es) = .error f := by
  intro es
  induction es with
  | nil => intro s a _ _; exact ⟨s, a, [], [], rfl, rfl, rfl, rfl, rfl⟩
  | cons e es ih =>
    intro s a hi hh
    cases he : isOld s.timers.length e with
    | true =>
      obtain ⟨s1, o, h1, h2, h3, h4, h5, h6, h7⟩ := step_old hi a hh e he
      have hnew : newEvents s.timers.length (e :: es) = newEvents s.timers.length es := by
        unfold newEvents; simp [he]
      have hold : (e :: es).filter (isOld s.timers.length) = e :: es.filter (isOld s.timers.length) := by simp [he]
      have := ih s1 a h3 (hh.trans h5.symm)
      rw [run, h2, hnew, hold]
      simp only [ok_bind]
      rw [h4, h6] at this
      cases hr : run (onto s1 a) es with
      | error f => rw [hr] at this; exact this
      | ok q =>
        rw [hr] at this
        obtain ⟨s2, a1, os1, os2, g1, g2, g3, g4, g5⟩ := this
        refine ⟨s2, a1, o :: os1, os2, ?_, g2, g3, ?_, ?_⟩
        · rw [run, h1]
          simp only [ok_bind]
          rw [g1]
          rfl
        · rw [← g4]; unfold outputsOf; simp [he]
        · rw [← g5]; unfold outputsOf; simp [he]
    | false =>
      have h2 := new_later _ e he
      generalize h1 : asNew s.timers.length e = e' at h2
      have hnew : newEvents s.timers.length (e :: es) = e' :: newEvents s.timers.length es := by
        unfold newEvents
        rw [List.filter_cons_of_pos (by simp [he]), List.map_cons, h1]
      have hold : (e :: es).filter (isOld s.timers.length) = es.filter (isOld s.timers.length) := by simp [he]
      have hst : step (onto s a) e = (step a e').map (stepOn s) := by
        have := step_on s a e'
        rw [← h2] at this
        exact this
      rw [run, hst, hnew, hold]
      cases hs : step a e' with
      | error f =>
        show run a (e' :: _) = _
        rw [run, hs]
        rfl
      | ok q =>
        obtain ⟨a0, o⟩ := q
        simp only [Except.map, ok_bind, stepOn]
        have hk := (step_keeps hs).1
        have := ih s a0 hi (hk.handler.trans hh)
        cases hr : run (onto s a0) es with
        | error f =>
          rw [hr] at this
          show run a (e' :: _) = _
          rw [run, hs]
          simp only [ok_bind]
          rw [this]
          rfl
        | ok q =>
          rw [hr] at this
          obtain ⟨s2, a1, os1, os2, g1, g2, g3, g4, g5⟩ := this
          refine ⟨s2, a1, os1, o :: os2, g1, ?_, g3, ?_, ?_⟩
          · rw [run, hs]
            simp only [ok_bind]
            rw [g2]
            rfl
          · rw [← g4]; unfold outputsOf; simp [he]
          · rw [List.map_cons, ← g5]; unfold outputsOf; simp [he]

end Verif.Proofs.Fresh
