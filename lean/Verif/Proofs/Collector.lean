import Verif.Proofs.Key

/-! Invariants of the Collector. -/

namespace Verif.Proofs.Coll
open Verif.Model Verif.Model.Collector Verif.Spec Verif.Proofs

/-! The map. -/

theorem lookup_filter (m : List (Bytes × Nat)) (k k' : Bytes) :
    (m.filter (fun e => e.1 ≠ k)).lookup k' = if k' = k then none else m.lookup k' := by
  induction m with
  | nil => simp
  | cons e m ih =>
    obtain ⟨a, v⟩ := e
    by_cases ha : a = k
    · rw [List.filter_cons_of_neg (by simpa using ha), ih]
      by_cases hk : k' = k
      · rw [if_pos hk, if_pos hk]
      · rw [if_neg hk, if_neg hk, List.lookup_cons]
        have : (k' == a) = false := by rw [ha]; simpa using hk
        rw [this]
    · rw [List.filter_cons_of_pos (by simpa using ha), List.lookup_cons, List.lookup_cons, ih]
      by_cases hk : k' = k
      · have : (k' == a) = false := by
          rw [hk]; simp only [beq_eq_false_iff_ne, ne_eq]; exact fun h => ha h.symm
        rw [this, if_pos hk]
      · rw [if_neg hk, if_neg hk]

theorem lookup_set (m : List (Bytes × Nat)) (k k' : Bytes) (v : Nat) :
    (mapSet m k v).lookup k' = if k' = k then some v else m.lookup k' := by
  unfold mapSet
  rw [List.lookup_cons, lookup_filter]
  by_cases h : k' = k
  · subst h; simp
  · have : (k' == k) = false := by simpa using h
    rw [this, if_neg h, if_neg h]

theorem lookup_delete (m : List (Bytes × Nat)) (k k' : Bytes) :
    (mapDelete m k).lookup k' = if k' = k then none else m.lookup k' := lookup_filter m k k'

/-! Segments, pipes. -/

/-- Segment number `j + 1` of `n` of the message stored under key `k`. -/
def SegK (k : Bytes) (n j : Nat) (pdu : TPDU) : Prop :=
  ∃ ref, Segment pdu n (j + 1) ref ∧ pduKey pdu n ref = (k, none)

theorem segK_inj {k k' : Bytes} {n n' j j' : Nat} {pdu : TPDU} (h : SegK k n j pdu) (h' : SegK k' n' j' pdu) :
    k = k' ∧ n = n' ∧ j = j' := by
  obtain ⟨r, h1, h2⟩ := h
  obtain ⟨r', h1', h2'⟩ := h'
  have := h1.info.symm.trans h1'.info
  simp only [Option.some.injEq, UDH.Concat.mk.injEq] at this
  obtain ⟨rfl, hj, rfl⟩ := this
  rw [h2] at h2'
  simp only [Prod.mk.injEq, and_true] at h2'
  exact ⟨h2', rfl, by omega⟩

/-- A pipe for the message of key `k`. -/
structure PipeOk (k : Bytes) (pipe : Pipe) : Prop where
  nonempty : ∃ (j : Nat) (ptr : Ptr), pipe.segments[j]? = some (some ptr)
  frags : pipe.frags = pipe.segments.countP Option.isSome
  seg : ∀ (j : Nat) (ptr : Ptr), pipe.segments[j]? = some (some ptr) → SegK k pipe.segments.length j ptr.pdu

theorem pipeOk_key {k k' : Bytes} {pipe : Pipe} (h : PipeOk k pipe) (h' : PipeOk k' pipe) : k = k' := by
  obtain ⟨j, ptr, hj⟩ := h.nonempty
  exact (segK_inj (h.seg j ptr hj) (h'.seg j ptr hj)).1

theorem pipeOk_cleanup {k : Bytes} {pipe : Pipe} (h : PipeOk k pipe) (c : Option Nat) : PipeOk k { pipe with cleanup := c } :=
  ⟨h.nonempty, h.frags, h.seg⟩

/-- Timers that have fired. -/
def Fired (t : Timer) : Prop := t.state = .fired ∨ t.state = .expired ∨ t.state = .done

/-- The invariant of a Collector that has been given supported TPDUs only. -/
structure Inv (s : State) : Prop where
  cur : ∀ (k : Bytes) (p : Nat), s.pipes.lookup k = some p → ∃ pipe, s.heap[p]? = some pipe ∧ PipeOk k pipe ∧
    pipe.frags < pipe.segments.length ∧ (s.timeout = false → pipe.cleanup = none) ∧
    (s.timeout = true → ∃ (tid : Nat) (t : Timer), pipe.cleanup = some tid ∧ s.timers[tid]? = some t ∧
      (t.state = .armed ∨ t.state = .fired ∨ (t.state = .stopped ∧ s.closed = true)))
  heap : ∀ (p : Nat) (pipe : Pipe), s.heap[p]? = some pipe → (∃ k, PipeOk k pipe) ∧
    (pipe.frags = pipe.segments.length ∨ (∃ k, s.pipes.lookup k = some p) ∨
      ∃ (tid : Nat) (t : Timer), pipe.cleanup = some tid ∧ s.timers[tid]? = some t ∧ Fired t)
  tim : ∀ (i : Nat) (t : Timer), s.timers[i]? = some t → ∃ pipe, s.heap[t.pipe]? = some pipe ∧ PipeOk t.key pipe ∧
    (t.state ≠ .stopped → pipe.cleanup = some i ∧ pipe.frags < pipe.segments.length) ∧
    (t.state = .armed → s.pipes.lookup t.key = some t.pipe ∧ s.closed = false) ∧
    (t.state = .expired ∨ t.state = .done → ∀ k, s.pipes.lookup k ≠ some t.pipe)
  cl : ∀ (p : Nat) (pipe : Pipe) (tid : Nat), s.heap[p]? = some pipe → pipe.cleanup = some tid → ∃ t, s.timers[tid]? = some t ∧ t.pipe = p
  notime : s.timeout = false → s.timers = []
  ids : ∀ (p : Nat) (pipe : Pipe) (j : Nat) (ptr : Ptr), s.heap[p]? = some pipe → pipe.segments[j]? = some (some ptr) → ptr.id < s.calls
  uniq : ∀ (p : Nat) (pipe : Pipe) (j : Nat) (ptr : Ptr) (p' : Nat) (pipe' : Pipe) (j' : Nat) (ptr' : Ptr), s.heap[p]? = some pipe → pipe.segments[j]? = some (some ptr) →
    s.heap[p']? = some pipe' → pipe'.segments[j']? = some (some ptr') → ptr.id = ptr'.id → p = p' ∧ j = j'

/-- Distinct keys have distinct pipes. -/
theorem Inv.inj {s : State} (h : Inv s) {k k' : Bytes} {p : Nat} (h1 : s.pipes.lookup k = some p)
    (h2 : s.pipes.lookup k' = some p) : k = k' := by
  obtain ⟨pipe, a, b, _⟩ := h.cur k p h1
  obtain ⟨pipe', a', b', _⟩ := h.cur k' p h2
  rw [a] at a'; cases a'
  exact pipeOk_key b b'

theorem inv_new (timeout handler : Bool) : Inv (New timeout handler) where
  cur := by intro k p h; simp [New] at h
  heap := by intro p pipe h; simp [New] at h
  tim := by intro i t h; simp [New] at h
  cl := by intro p pipe tid h; simp [New] at h
  notime := fun _ => rfl
  ids := by intro p pipe j ptr h; simp [New] at h
  uniq := by intro p pipe j ptr p' pipe' j' ptr' h; simp [New] at h

theorem inv_calls {s : State} (h : Inv s) : Inv { s with calls := s.calls + 1 } where
  cur := h.cur
  heap := h.heap
  tim := h.tim
  cl := h.cl
  notime := h.notime
  ids := fun p pipe j ptr a b => Nat.lt_succ_of_lt (h.ids p pipe j ptr a b)
  uniq := h.uniq

/-! Placing a segment. -/

/-- Storing an incomplete pipe, arming a timer if there is a timeout. -/
def store (s : State) (key : Bytes) (p : Nat) (pipe : Pipe) : State :=
  if s.timeout then
    { s with heap := s.heap.set p { pipe with cleanup := some s.timers.length }
             timers := s.timers ++ [⟨.armed, key, p⟩] }
  else { s with heap := s.heap.set p pipe }

/-- The pipe with one more segment. -/
def fill (pipe : Pipe) (j : Nat) (ptr : Ptr) : Pipe :=
  { pipe with segments := pipe.segments.set j (some ptr), frags := pipe.frags + 1 }

theorem place_eq (s : State) (ptr : Ptr) (key : Bytes) (n seq p : Nat) (pipe : Pipe) (hp : s.heap[p]? = some pipe)
    (hs : seq - 1 < pipe.segments.length) :
    place s ptr key none n seq p = .ok (
      if pipe.frags + 1 = n then
        ({ s with pipes := mapDelete s.pipes key, heap := s.heap.set p (fill pipe (seq - 1) ptr) },
          .returned (fill pipe (seq - 1) ptr).segments none)
      else (store s key p (fill pipe (seq - 1) ptr), .returned [] none)) := by
  have hi : idx s.heap (p : Int) = .ok pipe := by
    unfold idx
    rw [if_pos (by omega), Int.toNat_natCast, hp]
  unfold place
  rw [hi]
  simp only [ok_bind]
  rw [if_pos hs]
  simp only [pure_ok]
  by_cases h : pipe.frags + 1 = n
  · rw [if_pos h, if_pos h]; rfl
  · rw [if_neg h, if_neg h]
    unfold store
    by_cases ht : s.timeout
    · rw [if_pos ht, if_pos ht]; rfl
    · rw [if_neg ht, if_neg ht]; rfl

/-- What a call of `Collect` does. -/
inductive Outcome (s : State) (pdu : TPDU) : State → Output → Prop
  | closed : s.closed = true → Outcome s pdu { s with calls := s.calls + 1 } (.returned [] (some .closed))
  | single : s.closed = false → ¬ MultiPart pdu →
      Outcome s pdu { s with calls := s.calls + 1 } (.returned [some ⟨s.calls, pdu⟩] none)
  | range (c : UDH.Concat) : s.closed = false → pdu.ConcatInfo = some c → 2 ≤ c.segments →
      (c.seqno < 1 ∨ c.segments < c.seqno) →
      Outcome s pdu { s with calls := s.calls + 1 } (.returned [] (some .reassemblyInconsistency))
  | dup (k : Bytes) (n j p : Nat) (pipe : Pipe) (ptr : Ptr) : s.closed = false → SegK k n j pdu →
      s.pipes.lookup k = some p → s.heap[p]? = some pipe → pipe.segments[j]? = some (some ptr) →
      Outcome s pdu { s with calls := s.calls + 1 } (.returned [] (some .duplicateSegment))
  /-- the segment joins others; any timer is stopped -/
  | join (k : Bytes) (n j p : Nat) (pipe : Pipe) (timers : List Timer) : s.closed = false → SegK k n j pdu →
      s.pipes.lookup k = some p → s.heap[p]? = some pipe → pipe.segments[j]? = some none → pipe.segments.length = n →
      (s.timeout = false ∧ pipe.cleanup = none ∧ timers = s.timers ∨
        ∃ (tid : Nat) (t : Timer), s.timeout = true ∧ pipe.cleanup = some tid ∧ s.timers[tid]? = some t ∧ t.state = .armed ∧
          timers = s.timers.set tid { t with state := .stopped }) →
      pipe.frags + 1 < n →
      Outcome s pdu (store { s with calls := s.calls + 1, timers := timers } k p (fill pipe j ⟨s.calls, pdu⟩))
        (.returned [] none)
  /-- the segment is the last one -/
  | last (k : Bytes) (n j p : Nat) (pipe : Pipe) (timers : List Timer) : s.closed = false → SegK k n j pdu →
      s.pipes.lookup k = some p → s.heap[p]? = some pipe → pipe.segments[j]? = some none → pipe.segments.length = n →
      (s.timeout = false ∧ pipe.cleanup = none ∧ timers = s.timers ∨
        ∃ (tid : Nat) (t : Timer), s.timeout = true ∧ pipe.cleanup = some tid ∧ s.timers[tid]? = some t ∧ t.state = .armed ∧
          timers = s.timers.set tid { t with state := .stopped }) →
      pipe.frags + 1 = n →
      Outcome s pdu { s with calls := s.calls + 1, timers := timers, pipes := mapDelete s.pipes k,
                             heap := s.heap.set p (fill pipe j ⟨s.calls, pdu⟩) }
        (.returned (fill pipe j ⟨s.calls, pdu⟩).segments none)
  /-- the segment starts a new reassembly, as there is none or its timer has fired -/
  | fresh (k : Bytes) (n j : Nat) : s.closed = false → SegK k n j pdu →
      (s.pipes.lookup k = none ∨ ∃ (p : Nat) (pipe : Pipe) (tid : Nat) (t : Timer), s.pipes.lookup k = some p ∧ s.heap[p]? = some pipe ∧
        pipe.segments[j]? = some none ∧ pipe.cleanup = some tid ∧ s.timers[tid]? = some t ∧ t.state = .fired) →
      Outcome s pdu (store { s with
          calls := s.calls + 1
          pipes := mapSet s.pipes k s.heap.length
          heap := s.heap ++ [⟨none, List.replicate n none, 0⟩] } k s.heap.length
        (fill ⟨none, List.replicate n none, 0⟩ j ⟨s.calls, pdu⟩)) (.returned [] none)

theorem placeNew_eq (s : State) (ptr : Ptr) (key : Bytes) (n seq : Nat) (hn : 2 ≤ n) (h1 : 1 ≤ seq) (h2 : seq ≤ n) :
    placeNew s ptr key none n seq = .ok (store { s with
        pipes := mapSet s.pipes key s.heap.length
        heap := s.heap ++ [⟨none, List.replicate n none, 0⟩] } key s.heap.length
      (fill ⟨none, List.replicate n none, 0⟩ (seq - 1) ptr), .returned [] none) := by
  unfold placeNew
  rw [place_eq _ ptr key n seq s.heap.length ⟨none, List.replicate n none, 0⟩ (by simp) (by simp; omega)]
  simp only
  rw [if_neg (by omega)]

theorem idx_some {α : Type} {l : List α} {i : Nat} {x : α} (h : l[i]? = some x) : idx l (i : Int) = .ok x := by
  unfold idx
  rw [if_pos (by omega), Int.toNat_natCast, h]

theorem collect_outcome (s : State) (hi : Inv s) (pdu : TPDU) (hf : Fine pdu) :
    ∃ s' o, Collect s pdu = .ok (s', o) ∧ Outcome s pdu s' o := by
  unfold Collect
  simp only
  by_cases hc : s.closed = true
  · rw [if_pos hc]; exact ⟨_, _, rfl, .closed hc⟩
  have hc' : s.closed = false := by simpa using hc
  rw [if_neg hc]
  cases hci : pdu.ConcatInfo with
  | none =>
    refine ⟨_, _, rfl, .single hc' ?_⟩
    rintro ⟨c, h1, _⟩
    rw [hci] at h1; cases h1
  | some c =>
    simp only
    by_cases h2 : c.segments < 2
    · rw [if_pos h2]
      refine ⟨_, _, rfl, .single hc' ?_⟩
      rintro ⟨c', h1, h3⟩
      rw [hci] at h1; cases h1
      omega
    rw [if_neg h2]
    by_cases h3 : c.seqno < 1 ∨ c.seqno > c.segments
    · rw [if_pos h3]
      exact ⟨_, _, rfl, .range c hc' hci (by omega) h3⟩
    rw [if_neg h3]
    have hsup : Supported pdu := hf ⟨c, hci, by omega⟩
    obtain ⟨k, hk⟩ : ∃ k, pduKey pdu c.segments c.mref = (k, none) := ⟨_, Key.pduKey_supported pdu _ _ hsup⟩
    rw [hk]
    simp only
    have hseg : SegK k c.segments (c.seqno - 1) pdu :=
      ⟨c.mref, ⟨by rw [hci, show c.seqno - 1 + 1 = c.seqno by omega], by omega, by omega, by omega⟩, hk⟩
    cases hl : s.pipes.lookup k with
    | none =>
      simp only
      rw [placeNew_eq _ _ _ _ _ (by omega) (by omega) (by omega)]
      exact ⟨_, _, rfl, .fresh k _ _ hc' hseg (.inl hl)⟩
    | some p =>
      simp only
      obtain ⟨pipe, hp, hok, hinc, htf, htt⟩ := hi.cur k p hl
      have hlen : pipe.segments.length = c.segments := by
        obtain ⟨j, ptr, hj⟩ := hok.nonempty
        obtain ⟨r, g1, g2⟩ := hok.seg j ptr hj
        have hs' := Key.pduKey_none _ _ _ _ g2
        rw [Key.pduKey_supported _ _ _ hs'] at g2
        rw [Key.pduKey_supported _ _ _ hsup] at hk
        have := (Prod.mk.inj (g2.trans hk.symm)).1
        exact (Key.formatKey_inj _ _ _ _ _ _ _ _ this).2.2.2
      rw [idx_some hp]
      simp only [ok_bind]
      have hlt : c.seqno - 1 < pipe.segments.length := by omega
      have hj : pipe.segments[c.seqno - 1]? = some pipe.segments[c.seqno - 1] := List.getElem?_eq_getElem hlt
      rw [idx_some hj]
      simp only [ok_bind]
      cases hcur : pipe.segments[c.seqno - 1] with
      | some q =>
        rw [if_pos (show (some q).isSome = true from rfl)]
        rw [hcur] at hj
        exact ⟨_, _, rfl, .dup k _ _ p pipe q hc' hseg hl hp hj⟩
      | none =>
        rw [if_neg (by simp)]
        rw [hcur] at hj
        rcases Bool.eq_false_or_eq_true s.timeout with ht | ht
        rotate_left
        ·
          rw [htf ht]
          simp only
          rw [place_eq _ _ _ _ _ p pipe (by exact hp) hlt]
          by_cases hn : pipe.frags + 1 = c.segments
          · rw [if_pos hn]
            exact ⟨_, _, rfl, .last k _ _ p pipe s.timers hc' hseg hl hp hj hlen (.inl ⟨ht, htf ht, rfl⟩) hn⟩
          · rw [if_neg hn]
            exact ⟨_, _, rfl, .join k _ _ p pipe s.timers hc' hseg hl hp hj hlen (.inl ⟨ht, htf ht, rfl⟩) (by omega)⟩
        ·
          obtain ⟨tid, t, hcl, htid, hst⟩ := htt ht
          rw [hcl]
          simp only
          unfold stopTimer
          rw [htid]
          simp only
          by_cases ha : t.state = .armed
          · rw [if_pos ha]
            simp only [if_true]
            rw [place_eq _ _ _ _ _ p pipe (by exact hp) hlt]
            have hor : s.timeout = false ∧ pipe.cleanup = none ∧ s.timers.set tid { t with state := .stopped } = s.timers ∨
                ∃ (tid' : Nat) (t' : Timer), s.timeout = true ∧ pipe.cleanup = some tid' ∧ s.timers[tid']? = some t' ∧ t'.state = .armed ∧
                  s.timers.set tid { t with state := .stopped } = s.timers.set tid' { t' with state := .stopped } :=
              .inr ⟨tid, t, ht, hcl, htid, ha, rfl⟩
            by_cases hn : pipe.frags + 1 = c.segments
            · rw [if_pos hn]
              exact ⟨_, _, rfl, .last k _ _ p pipe _ hc' hseg hl hp hj hlen hor hn⟩
            · rw [if_neg hn]
              exact ⟨_, _, rfl, .join k _ _ p pipe _ hc' hseg hl hp hj hlen hor (by omega)⟩
          · rw [if_neg ha]
            simp only [Bool.false_eq_true, if_false]
            rw [placeNew_eq _ _ _ _ _ (by omega) (by omega) (by omega)]
            refine ⟨_, _, rfl, .fresh k _ _ hc' hseg (.inr ⟨p, pipe, tid, t, hl, hp, hj, hcl, htid, ?_⟩)⟩
            rcases hst with h | h | ⟨_, h⟩
            · exact absurd h ha
            · exact h
            · rw [hc'] at h; cases h

end Verif.Proofs.Coll
