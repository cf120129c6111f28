import Verif.Props.Collector

/-! C61: what the slices obtained from `Pipes`, `Collect` and the expiry handler show later on. -/

namespace Verif.Props
open Verif.Model Verif.Model.Collector Verif.Spec Verif.Proofs Verif.Proofs.Coll

/-- The slot filled by a call, if any. -/
def Filled (s : State) (e : Event) (p : Nat) (pipe pipe' : Pipe) : Prop :=
  pipe'.segments = pipe.segments ∨ ∃ (pdu : TPDU) (k : Bytes) (j : Nat), e = .collect pdu ∧ SegK k pipe.segments.length j pdu ∧
    s.pipes.lookup k = some p ∧ pipe.segments[j]? = some none ∧ pipe'.segments = pipe.segments.set j (some ⟨s.calls, pdu⟩)

theorem heap_store (s : State) (k : Bytes) (p0 : Nat) (x : Pipe) : (store s k p0 x).heap.map Pipe.segments = (s.heap.set p0 x).map Pipe.segments ∧
    (store s k p0 x).pipes = s.pipes := by
  unfold store
  split
  · refine ⟨?_, rfl⟩
    simp only [List.map_set]
  · exact ⟨rfl, rfl⟩

theorem seg_get {h : List Pipe} {p : Nat} {sg : List (Option Ptr)} (e : (h.map Pipe.segments)[p]? = some sg) :
    ∃ pipe, h[p]? = some pipe ∧ pipe.segments = sg := by
  rw [List.getElem?_map] at e
  cases hp : h[p]? with
  | none => rw [hp] at e; cases e
  | some x => rw [hp] at e; cases e; exact ⟨x, rfl, rfl⟩

/-- One step changes an existing array by filling at most one slot, and only of a pipe in the map. -/
theorem step_slot {s s' : State} {e : Event} {o : Output} (hi : Inv s) (he : FineEvent e) (h : step s e = .ok (s', o)) :
    (∀ (p : Nat) (pipe : Pipe), s.heap[p]? = some pipe → ∃ pipe', s'.heap[p]? = some pipe' ∧ Filled s e p pipe pipe') ∧
    (∀ (p : Nat), p < s.heap.length → (∀ k, s.pipes.lookup k ≠ some p) → ∀ k, s'.pipes.lookup k ≠ some p) := by
  have quiet : ∀ {s' : State}, s'.heap = s.heap → (∀ k p, s'.pipes.lookup k = some p → s.pipes.lookup k = some p) →
      (∀ (p : Nat) (pipe : Pipe), s.heap[p]? = some pipe → ∃ pipe', s'.heap[p]? = some pipe' ∧ Filled s e p pipe pipe') ∧
      (∀ (p : Nat), p < s.heap.length → (∀ k, s.pipes.lookup k ≠ some p) → ∀ k, s'.pipes.lookup k ≠ some p) := by
    intro s' h1 h2
    exact ⟨fun p pipe hp => ⟨pipe, by rw [h1]; exact hp, .inl rfl⟩, fun p _ hn k hk => hn k (h2 k p hk)⟩
  cases e with
  | fire i =>
    simp only [step, Except.ok.injEq, Prod.mk.injEq] at h
    rw [← h.1]
    apply quiet
    · unfold fire; split
      · split <;> rfl
      · rfl
    · intro k p hk
      unfold fire at hk; split at hk
      · split at hk <;> exact hk
      · exact hk
  | expire i =>
    simp only [step, Except.ok.injEq, Prod.mk.injEq] at h
    rw [← h.1]
    apply quiet
    · unfold expire; split
      · split <;> rfl
      · rfl
    · intro k p hk
      unfold expire at hk; split at hk
      · split at hk
        · simp only at hk
          split at hk
          · rw [lookup_delete] at hk
            split at hk
            · cases hk
            · exact hk
          · exact hk
        · exact hk
      · exact hk
  | handle i =>
    simp only [step, Except.ok.injEq] at h
    have h : (handle s i).1 = s' := by rw [h]
    rw [← h]
    apply quiet
    · unfold handle; split
      · split <;> rfl
      · rfl
    · intro k p hk
      unfold handle at hk; split at hk
      · split at hk <;> exact hk
      · exact hk
  | close =>
    simp only [step, Except.ok.injEq, Prod.mk.injEq] at h
    rw [← h.1]
    apply quiet
    · unfold Close; split <;> rfl
    · intro k p hk
      unfold Close at hk; split at hk <;> exact hk
  | collect pdu =>
    obtain ⟨s1, o1, h1, h2⟩ := collect_outcome s hi pdu he
    have h : Collect s pdu = .ok (s', o) := h
    rw [h1] at h
    cases h
    have put : ∀ {k : Bytes} {j p0 : Nat} {pipe0 : Pipe} {s' : State}, SegK k pipe0.segments.length j pdu → s.pipes.lookup k = some p0 →
        s.heap[p0]? = some pipe0 → pipe0.segments[j]? = some none →
        s'.heap.map Pipe.segments = (s.heap.set p0 (fill pipe0 j ⟨s.calls, pdu⟩)).map Pipe.segments →
        (∀ k p, s'.pipes.lookup k = some p → s.pipes.lookup k = some p) →
        (∀ (p : Nat) (pipe : Pipe), s.heap[p]? = some pipe → ∃ pipe', s'.heap[p]? = some pipe' ∧ Filled s (.collect pdu) p pipe pipe') ∧
        (∀ (p : Nat), p < s.heap.length → (∀ k, s.pipes.lookup k ≠ some p) → ∀ k, s'.pipes.lookup k ≠ some p) := by
      intro k j p0 pipe0 s' a1 a2 a3 a4 a5 a6
      refine ⟨fun p pipe hp => ?_, fun p _ hn k hk => hn k (a6 k p hk)⟩
      by_cases e : p = p0
      · subst e
        rw [a3] at hp; cases hp
        obtain ⟨pipe', g1, g2⟩ := seg_get (h := s'.heap) (p := p) (sg := (fill pipe0 j ⟨s.calls, pdu⟩).segments) (by
          rw [a5, List.getElem?_map, List.getElem?_set_self (get_lt a3)]; rfl)
        exact ⟨pipe', g1, .inr ⟨pdu, k, j, rfl, a1, a2, a4, g2⟩⟩
      · obtain ⟨pipe', g1, g2⟩ := seg_get (h := s'.heap) (p := p) (sg := pipe.segments) (by
          rw [a5, List.getElem?_map, List.getElem?_set_ne (Ne.symm e), hp]; rfl)
        exact ⟨pipe', g1, .inl g2⟩
    cases h2 with
    | closed => exact quiet rfl (fun _ _ h => h)
    | single => exact quiet rfl (fun _ _ h => h)
    | range => exact quiet rfl (fun _ _ h => h)
    | dup => exact quiet rfl (fun _ _ h => h)
    | join k n j p pipe timers hc hk hl hp hj hn ht hf =>
      subst hn
      have := heap_store { s with calls := s.calls + 1, timers := timers } k p (fill pipe j ⟨s.calls, pdu⟩)
      exact put hk hl hp hj this.1 (fun k p h => by rw [this.2] at h; exact h)
    | last k n j p pipe timers hc hk hl hp hj hn ht hf =>
      subst hn
      refine put hk hl hp hj rfl (fun k' p h => ?_)
      simp only at h
      rw [lookup_delete] at h
      split at h
      · cases h
      · exact h
    | fresh k n j hc hk hl =>
      have := heap_store { s with
          calls := s.calls + 1
          pipes := mapSet s.pipes k s.heap.length
          heap := s.heap ++ [⟨none, List.replicate n none, 0⟩] } k s.heap.length (fill ⟨none, List.replicate n none, 0⟩ j ⟨s.calls, pdu⟩)
      refine ⟨fun p pipe hp => ?_, fun p hlt hn k' hk' => ?_⟩
      · obtain ⟨pipe', g1, g2⟩ := seg_get (p := p) (sg := pipe.segments) (by
          rw [this.1, List.getElem?_map, List.getElem?_set_ne (by have := get_lt hp; omega),
            List.getElem?_append_left (get_lt hp), hp]; rfl)
        exact ⟨pipe', g1, .inl g2⟩
      · rw [this.2] at hk'
        simp only at hk'
        rw [lookup_set] at hk'
        split at hk'
        · cases hk'; omega
        · exact hn k' hk'

/-- What has become of an array later: every slot is as it was, unless it was empty and has been filled with a
segment collected since. -/
def Later (m : Ident) (later : List Event) (a b : List (Option Ptr)) : Prop :=
  b.length = a.length ∧ ∀ j : Nat, b[j]? = a[j]? ∨ (a[j]? = some none ∧ ∃ ptr : Ptr, b[j]? = some (some ptr) ∧
    .collect ptr.pdu ∈ later ∧ SegmentOf m (j + 1) ptr.pdu)

theorem run_slot (m : Ident) : ∀ (later : List Event) {s s' : State} {os : List Output}, Inv s → (∀ e ∈ later, FineEvent e) →
    run s later = .ok (s', os) → ∀ (p : Nat) (pipe : Pipe), s.heap[p]? = some pipe → PipeOk (keyOf m) pipe →
    ∃ pipe', s'.heap[p]? = some pipe' ∧ Later m later pipe.segments pipe'.segments ∧
      ((∀ k, s.pipes.lookup k ≠ some p) → pipe'.segments = pipe.segments)
  | [], s, s', os, hi, hf, h, p, pipe, hp, hk => by
    cases h
    exact ⟨pipe, hp, ⟨rfl, fun j => .inl rfl⟩, fun _ => rfl⟩
  | e :: es, s, s', os, hi, hf, h, p, pipe, hp, hk => by
    simp only [run] at h
    obtain ⟨⟨s1, o1⟩, h1, h⟩ := bind_eq_ok.1 h
    obtain ⟨⟨s2, os2⟩, h2, h⟩ := bind_eq_ok.1 h
    cases h
    obtain ⟨a1, a2⟩ := step_slot hi (hf e (by simp)) h1
    obtain ⟨s1', o1', g1, hi1, _⟩ := step_ok hi (hf e (by simp))
    rw [h1] at g1; cases g1
    obtain ⟨pipe1, hp1, hfill⟩ := a1 p pipe hp
    -- the pipe is still one for the message
    have key : ∃ k, PipeOk k pipe1 := (hi1.heap p pipe1 hp1).1
    obtain ⟨j0, ptr0, hj0⟩ := hk.nonempty
    have hkeep : pipe1.segments[j0]? = some (some ptr0) := by
      rcases hfill with he | ⟨pdu, k, j, _, _, _, hj, he⟩
      · rw [he]; exact hj0
      · rw [he, List.getElem?_set_ne]
        · exact hj0
        · rintro rfl; rw [hj0] at hj; cases hj
    have hk1 : PipeOk (keyOf m) pipe1 := by
      obtain ⟨k, hkk⟩ := key
      have := (segK_inj (hkk.seg j0 ptr0 hkeep) (hk.seg j0 ptr0 hj0)).1
      rw [← this]; exact hkk
    obtain ⟨pipe', b1, ⟨b2, b3⟩, b4⟩ := run_slot m es hi1 (fun x hx => hf x (by simp [hx])) h2 p pipe1 hp1 hk1
    have hlen : pipe1.segments.length = pipe.segments.length := by
      rcases hfill with he | ⟨pdu, k, j, _, _, _, hj, he⟩ <;> rw [he]
      simp
    refine ⟨pipe', b1, ⟨b2.trans hlen, fun i => ?_⟩, fun hn => ?_⟩
    · rcases hfill with he | ⟨pdu, k, j, rfl, hk', hlk, hj, he⟩
      · rcases b3 i with hb | ⟨hb, ptr, c1, c2, c3⟩
        · exact .inl (by rw [hb, he])
        · exact .inr ⟨by rw [← he]; exact hb, ptr, c1, by simp [c2], c3⟩
      · by_cases hij : i = j
        · subst hij
          have hi' : pipe1.segments[i]? = some (some ⟨s.calls, pdu⟩) := by
            rw [he, List.getElem?_set_self (get_lt hj)]
          rcases b3 i with hb | ⟨hb, _⟩
          · refine .inr ⟨hj, ⟨s.calls, pdu⟩, by rw [hb, hi'], by simp, ?_⟩
            obtain ⟨m', m1, m2, m3⟩ := of_segK (hk1.seg i _ hi')
            rw [keyOf_inj m3] at m1
            exact m1
          · rw [hi'] at hb; cases hb
        · have hi' : pipe1.segments[i]? = pipe.segments[i]? := by
            rw [he, List.getElem?_set_ne (Ne.symm hij)]
          rcases b3 i with hb | ⟨hb, ptr, c1, c2, c3⟩
          · exact .inl (by rw [hb, hi'])
          · exact .inr ⟨by rw [← hi']; exact hb, ptr, c1, by simp [c2], c3⟩
    · rw [b4 (a2 p (get_lt hp) hn)]
      rcases hfill with he | ⟨pdu, k, j, _, _, hlk, _⟩
      · exact he
      · exact absurd hlk (hn k)

/-- C61 is false: the slice obtained from `Pipes` after one segment shows a second one collected later. -/
theorem C61_counterexample : ∃ (s s' : State) (os os' : List Output) (p : Nat),
    run (New false false) [.collect (exSeg 7 3 1)] = .ok (s, os) ∧ (Pipes s).lookup (keyOf exIdent) = some p ∧
    deref s p = [some ⟨0, exSeg 7 3 1⟩, none, none] ∧
    run s [.collect (exSeg 7 3 2)] = .ok (s', os') ∧
    deref s' p = [some ⟨0, exSeg 7 3 1⟩, some ⟨1, exSeg 7 3 2⟩, none] :=
  ⟨_, _, _, _, _, rfl, rfl, rfl, rfl, rfl⟩

/-- C61, partial: in a slice obtained from `Pipes` at any time nothing changes later except that empty slots are filled
with segments of the same message collected since.  Missing, because false: that empty slots stay empty. -/
theorem C61_pipes_partial (timeout handler : Bool) (es later : List Event) (hes : ∀ e ∈ es, FineEvent e)
    (hl : ∀ e ∈ later, FineEvent e) (s s' : State) (os os' : List Output)
    (h : run (New timeout handler) es = .ok (s, os)) (h' : run s later = .ok (s', os'))
    (m : Ident) (p : Nat) (hp : (Pipes s).lookup (keyOf m) = some p) :
    (deref s' p).length = (deref s p).length ∧ ∀ j : Nat, (deref s' p)[j]? = (deref s p)[j]? ∨
      ((deref s p)[j]? = some none ∧ ∃ ptr : Ptr, (deref s' p)[j]? = some (some ptr) ∧
        .collect ptr.pdu ∈ later ∧ SegmentOf m (j + 1) ptr.pdu) := by
  have hi := (hist_run hes h).inv
  obtain ⟨pipe, h1, h2, _⟩ := hi.cur _ p hp
  obtain ⟨pipe', g1, g2, _⟩ := run_slot m later hi hl h' p pipe h1 h2
  rw [deref_of h1, deref_of g1]
  exact g2

/-- C61, partial: in particular the slice is unchanged as long as no segment of its message is collected. -/
theorem C61_unrelated_partial (timeout handler : Bool) (es later : List Event) (hes : ∀ e ∈ es, FineEvent e)
    (hl : ∀ e ∈ later, FineEvent e) (s s' : State) (os os' : List Output)
    (h : run (New timeout handler) es = .ok (s, os)) (h' : run s later = .ok (s', os'))
    (m : Ident) (p : Nat) (hp : (Pipes s).lookup (keyOf m) = some p)
    (hn : ∀ pdu, .collect pdu ∈ later → ∀ seq, ¬ SegmentOf m seq pdu) : deref s' p = deref s p := by
  obtain ⟨_, h1⟩ := C61_pipes_partial timeout handler es later hes hl s s' os os' h h' m p hp
  apply List.ext_getElem?
  intro j
  rcases h1 j with h | ⟨_, ptr, _, h2, h3⟩
  · exact h
  · exact absurd h3 (hn _ h2 _)

/-- C61: a slice whose message has left the map (because it was returned or has expired) never changes again. -/
theorem C61_removed (timeout handler : Bool) (es later : List Event) (hes : ∀ e ∈ es, FineEvent e)
    (hl : ∀ e ∈ later, FineEvent e) (s s' : State) (os os' : List Output)
    (h : run (New timeout handler) es = .ok (s, os)) (h' : run s later = .ok (s', os'))
    (p : Nat) (hp : p < s.heap.length) (hn : ∀ key, (Pipes s).lookup key ≠ some p) : deref s' p = deref s p := by
  have hi := (hist_run hes h).inv
  have h1 := List.getElem?_eq_getElem hp
  obtain ⟨k, hk⟩ := (hi.heap p _ h1).1
  obtain ⟨j, ptr, hj⟩ := hk.nonempty
  obtain ⟨m, _, _, rfl⟩ := of_segK (hk.seg j ptr hj)
  obtain ⟨pipe', g1, _, g2⟩ := run_slot m later hi hl h' p _ h1 hk
  rw [deref_of h1, deref_of g1]
  exact g2 hn

/-- Beside C61: a slice obtained while two messages are in progress. -/
example : ∃ s s' os os', run (New true true) [.collect (exSeg 7 3 1), .collect (exSeg 8 2 1)] = .ok (s, os) ∧
    (Pipes s).lookup (keyOf exIdent) = some 0 ∧ run s [.collect (exSeg 8 2 2), .fire 0, .expire 0] = .ok (s', os') ∧
    Pipes s' = [] ∧ deref s' 0 = deref s 0 := ⟨_, _, _, _, rfl, rfl, rfl, rfl, rfl⟩

end Verif.Props
