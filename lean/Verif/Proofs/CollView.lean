import Verif.Proofs.CollInv
import Verif.Spec.Trace

/-! What a Collector does to one message is what the reassembly of that message on its own does. -/

namespace Verif.Proofs.Coll
open Verif.Model Verif.Model.Collector Verif.Spec Verif.Proofs
open Verif.Spec.Reassembly (Parts Clock View Input Result)

/-! Selecting the timers of one key. -/

/-- The timers of key `k`. -/
def sel (k : Bytes) (l : List Timer) : List Timer := l.filter (fun t => t.key = k)

/-- The number of timer `i` among those of key `k`. -/
def loc (k : Bytes) (l : List Timer) (i : Nat) : Nat := (sel k (l.take i)).length

theorem sel_append (k : Bytes) (a b : List Timer) : sel k (a ++ b) = sel k a ++ sel k b := by
  unfold sel; exact List.filter_append ..

theorem split_at {α : Type} {l : List α} {i : Nat} {x : α} (h : l[i]? = some x) :
    l = l.take i ++ x :: l.drop (i + 1) ∧ (l.take i).length = i := by
  have hlt := get_lt h
  constructor
  · have hx : l[i] = x := by
      rw [List.getElem?_eq_getElem hlt] at h; exact Option.some.inj h
    rw [← hx, List.getElem_cons_drop, List.take_append_drop]
  · simp; omega

theorem set_split {α : Type} (a b : List α) (x y : α) (i : Nat) (h : a.length = i) :
    (a ++ x :: b).set i y = a ++ y :: b := by
  subst h
  rw [List.set_append_right _ _ (Nat.le_refl _)]
  simp

theorem sel_set {k : Bytes} {l : List Timer} {i : Nat} {t t' : Timer} (h : l[i]? = some t) (hk : t'.key = t.key) :
    sel k (l.set i t') = if t.key = k then (sel k l).set (loc k l i) t' else sel k l := by
  obtain ⟨h1, h2⟩ := split_at h
  have hl : loc k l i = (sel k (l.take i)).length := rfl
  rw [hl]
  generalize l.take i = a at h1 h2
  generalize l.drop (i + 1) = b at h1
  subst h1
  rw [set_split _ _ _ _ _ h2, sel_append, sel_append]
  by_cases hkk : t.key = k
  · rw [if_pos hkk]
    have e1 : sel k (t' :: b) = t' :: sel k b := List.filter_cons_of_pos (by simp [hk, hkk])
    have e2 : sel k (t :: b) = t :: sel k b := List.filter_cons_of_pos (by simp [hkk])
    rw [e1, e2, set_split _ _ _ _ _ rfl]
  · rw [if_neg hkk]
    have e1 : sel k (t' :: b) = sel k b := List.filter_cons_of_neg (by simp [hk, hkk])
    have e2 : sel k (t :: b) = sel k b := List.filter_cons_of_neg (by simp [hkk])
    rw [e1, e2]

theorem sel_get {k : Bytes} {l : List Timer} {i : Nat} {t : Timer} (h : l[i]? = some t) (hk : t.key = k) :
    (sel k l)[loc k l i]? = some t := by
  obtain ⟨h1, h2⟩ := split_at h
  have hl : loc k l i = (sel k (l.take i)).length := rfl
  rw [hl]
  generalize l.take i = a at h1 h2
  generalize l.drop (i + 1) = b at h1
  subst h1
  have e2 : sel k (t :: b) = t :: sel k b := List.filter_cons_of_pos (by simp [hk])
  rw [sel_append, e2]
  simp

theorem loc_set {k : Bytes} {l : List Timer} {i j : Nat} {t t' : Timer} (h : l[i]? = some t) (hk : t'.key = t.key) :
    loc k (l.set i t') j = loc k l j := by
  unfold loc
  rw [List.take_set]
  by_cases hij : i < j
  · have h' : (l.take j)[i]? = some t := by rw [List.getElem?_take_of_lt hij]; exact h
    rw [sel_set h' hk]
    split
    · simp
    · rfl
  · rw [List.set_eq_of_length_le]
    simp; omega

theorem loc_snoc {k : Bytes} {l : List Timer} {j : Nat} {t : Timer} (h : j ≤ l.length) :
    loc k (l ++ [t]) j = loc k l j := by
  unfold loc
  rw [List.take_append_of_le_length h]

theorem loc_length (k : Bytes) (l : List Timer) : loc k l l.length = (sel k l).length := by
  unfold loc; rw [List.take_length]

theorem loc_lt {k : Bytes} {l : List Timer} {i j : Nat} {t : Timer} (h : l[i]? = some t) (hk : t.key = k) (hij : i < j) :
    loc k l i < loc k l j := by
  have h' : (l.take j)[i]? = some t := by rw [List.getElem?_take_of_lt hij]; exact h
  have := get_lt (sel_get h' hk)
  unfold loc at this ⊢
  rw [List.take_take, Nat.min_eq_left (by omega)] at this
  exact this

theorem loc_inj {k : Bytes} {l : List Timer} {i j : Nat} {t u : Timer} (h : l[i]? = some t) (hk : t.key = k)
    (h' : l[j]? = some u) (hk' : u.key = k) (he : loc k l i = loc k l j) : i = j := by
  rcases Nat.lt_trichotomy i j with hij | hij | hij
  · have := loc_lt h hk hij; omega
  · exact hij
  · have := loc_lt h' hk' hij; omega

/-! The view. -/

theorem pdus_get (l : List (Option Ptr)) (j : Nat) : (pdus l)[j]? = (l[j]?).map (Option.map (·.pdu)) := by
  unfold pdus; exact List.getElem?_map ..

theorem pdus_set (l : List (Option Ptr)) (j : Nat) (q : Ptr) : pdus (l.set j (some q)) = (pdus l).set j (some q.pdu) := by
  unfold pdus; rw [List.map_set]; rfl

theorem pdus_replicate (n : Nat) : pdus (List.replicate n none) = List.replicate n none := by
  unfold pdus; rw [List.map_replicate]; rfl

/-- A timer as a clock. -/
def clock (heap : List Pipe) (t : Timer) : Clock :=
  match t.state with
  | .armed => .counting
  | .fired => .fired (pdus (((heap[t.pipe]?).map (·.segments)).getD []))
  | .expired => .expired (pdus (((heap[t.pipe]?).map (·.segments)).getD []))
  | .done => .over
  | .stopped => .over

theorem clock_state {h h' : List Pipe} {t : Timer} (he : (t.state = .fired ∨ t.state = .expired) → h[t.pipe]? = h'[t.pipe]?) :
    clock h t = clock h' t := by
  unfold clock
  split
  · rfl
  · rename_i hs; rw [he (.inl hs)]
  · rename_i hs; rw [he (.inr hs)]
  · rfl
  · rfl

/-- The Collector as seen by the message of key `k`. -/
def view (k : Bytes) (s : State) : View where
  pending := (s.pipes.lookup k).bind (fun p => (s.heap[p]?).map (fun pipe => (pdus pipe.segments, pipe.cleanup.map (loc k s.timers))))
  clocks := (sel k s.timers).map (clock s.heap)
  closed := s.closed

theorem view_new (k : Bytes) (timeout handler : Bool) : view k (New timeout handler) = Reassembly.start := rfl

theorem view_calls (k : Bytes) (s : State) (c : Nat) : view k { s with calls := c } = view k s := rfl

theorem view_pending {k : Bytes} {s : State} {p : Nat} {pipe : Pipe} (h : s.pipes.lookup k = some p)
    (hp : s.heap[p]? = some pipe) :
    (view k s).pending = some (pdus pipe.segments, pipe.cleanup.map (loc k s.timers)) := by
  unfold view; simp only; rw [h]; simp only [Option.bind_some]; rw [hp]; rfl

theorem view_pending_none {k : Bytes} {s : State} (h : s.pipes.lookup k = none) : (view k s).pending = none := by
  unfold view; simp only; rw [h]; rfl

theorem map_set_clock {heap : List Pipe} {l : List Timer} {i : Nat} {t : Timer} :
    (l.set i t).map (clock heap) = (l.map (clock heap)).set i (clock heap t) := List.map_set

theorem sel_mem {k : Bytes} {l : List Timer} {t : Timer} (h : t ∈ sel k l) : ∃ i : Nat, l[i]? = some t ∧ t.key = k := by
  obtain ⟨h1, h2⟩ := List.mem_filter.1 h
  obtain ⟨i, hi⟩ := List.mem_iff_getElem?.1 h1
  exact ⟨i, hi, by simpa using h2⟩

theorem clocks_congr {k : Bytes} {h h' : List Pipe} {l : List Timer}
    (he : ∀ (i : Nat) (t : Timer), l[i]? = some t → t.key = k → (t.state = .fired ∨ t.state = .expired) → h[t.pipe]? = h'[t.pipe]?) :
    (sel k l).map (clock h) = (sel k l).map (clock h') := by
  apply List.map_congr_left
  intro t ht
  obtain ⟨i, hi, hk⟩ := sel_mem ht
  exact clock_state (he i t hi hk)

/-! Steps that do not concern the message. -/

theorem view_join_other {s : State} (hi : Inv s) {pdu : TPDU} {k k' : Bytes} {j p : Nat} {pipe : Pipe}
    {timers : List Timer} (hkk : k' ≠ k) (hl : s.pipes.lookup k' = some p) (hp : s.heap[p]? = some pipe)
    (hs : Stopped s pipe timers) :
    view k (store { s with calls := s.calls + 1, timers := timers } k' p (fill pipe j ⟨s.calls, pdu⟩)) = view k s := by
  obtain ⟨pipe', hp', hok, _⟩ := hi.cur k' p hl
  rw [hp] at hp'; cases hp'
  have hne : ∀ (i : Nat) (t : Timer), s.timers[i]? = some t → t.key = k → p ≠ t.pipe := by
    rintro i t h1 h2 rfl
    obtain ⟨pp, q1, q2, _⟩ := hi.tim i t h1
    rw [hp] at q1; cases q1
    exact hkk (pipeOk_key hok (h2 ▸ q2))
  have hpne : ∀ (p' : Nat), s.pipes.lookup k = some p' → p ≠ p' := by
    rintro p' h rfl
    exact hkk (hi.inj hl h)
  rcases hs with ⟨ht, hcl, rfl⟩ | ⟨tid, t, ht, hcl, htid, harm, rfl⟩
  · unfold store
    simp only [ht, Bool.false_eq_true, if_false]
    unfold view
    simp only [View.mk.injEq, and_true]
    constructor
    · cases hlk : s.pipes.lookup k with
      | none => rfl
      | some p' =>
        simp only [Option.bind_some]
        rw [List.getElem?_set_ne (hpne p' hlk)]
    · apply clocks_congr
      intro i t h1 h2 _
      rw [List.getElem?_set_ne (hne i t h1 h2)]
  · have hkt : t.key = k' := by
      obtain ⟨t', e1, e2⟩ := hi.cl p pipe tid hp hcl
      rw [htid] at e1; cases e1
      obtain ⟨pp, q1, q2, _⟩ := hi.tim tid t htid
      rw [e2, hp] at q1; cases q1
      exact pipeOk_key q2 hok
    have hsel : sel k (s.timers.set tid { t with state := .stopped } ++ [⟨.armed, k', p⟩]) = sel k s.timers := by
      rw [sel_append, sel_set htid (by rfl), if_neg (by rw [hkt]; exact hkk)]
      have : sel k [(⟨.armed, k', p⟩ : Timer)] = [] := List.filter_cons_of_neg (by simp [hkk])
      rw [this, List.append_nil]
    unfold store
    simp only [ht, if_true]
    unfold view
    simp only [View.mk.injEq, and_true]
    constructor
    · cases hlk : s.pipes.lookup k with
      | none => rfl
      | some p' =>
        simp only [Option.bind_some]
        rw [List.getElem?_set_ne (hpne p' hlk)]
        cases hp2 : s.heap[p']? with
        | none => rfl
        | some pp =>
          simp only [Option.map_some, Option.some.injEq, Prod.mk.injEq, true_and]
          cases hc2 : pp.cleanup with
          | none => rfl
          | some ti =>
            simp only [Option.map_some, Option.some.injEq]
            obtain ⟨tt, a, _⟩ := hi.cl p' pp ti hp2 hc2
            rw [loc_snoc (by rw [List.length_set]; exact Nat.le_of_lt (get_lt a)), loc_set htid (by rfl)]
    · rw [hsel]
      apply clocks_congr
      intro i t h1 h2 _
      rw [List.getElem?_set_ne (hne i t h1 h2)]

theorem view_last_other {s : State} (hi : Inv s) {pdu : TPDU} {k k' : Bytes} {j p : Nat} {pipe : Pipe}
    {timers : List Timer} (hkk : k' ≠ k) (hl : s.pipes.lookup k' = some p) (hp : s.heap[p]? = some pipe)
    (hs : Stopped s pipe timers) :
    view k { s with calls := s.calls + 1, timers := timers, pipes := mapDelete s.pipes k',
                    heap := s.heap.set p (fill pipe j ⟨s.calls, pdu⟩) } = view k s := by
  obtain ⟨pipe', hp', hok, _⟩ := hi.cur k' p hl
  rw [hp] at hp'; cases hp'
  have hne : ∀ (i : Nat) (t : Timer), s.timers[i]? = some t → t.key = k → p ≠ t.pipe := by
    rintro i t h1 h2 rfl
    obtain ⟨pp, q1, q2, _⟩ := hi.tim i t h1
    rw [hp] at q1; cases q1
    exact hkk (pipeOk_key hok (h2 ▸ q2))
  have hpne : ∀ (p' : Nat), s.pipes.lookup k = some p' → p ≠ p' := by
    rintro p' h rfl
    exact hkk (hi.inj hl h)
  have hlook : (mapDelete s.pipes k').lookup k = s.pipes.lookup k := by
    rw [lookup_delete, if_neg (fun e => hkk e.symm)]
  rcases hs with ⟨ht, hcl, rfl⟩ | ⟨tid, t, ht, hcl, htid, harm, rfl⟩
  · unfold view
    simp only [View.mk.injEq, and_true]
    rw [hlook]
    constructor
    · cases hlk : s.pipes.lookup k with
      | none => rfl
      | some p' =>
        simp only [Option.bind_some]
        rw [List.getElem?_set_ne (hpne p' hlk)]
    · apply clocks_congr
      intro i t h1 h2 _
      rw [List.getElem?_set_ne (hne i t h1 h2)]
  · have hkt : t.key = k' := by
      obtain ⟨t', e1, e2⟩ := hi.cl p pipe tid hp hcl
      rw [htid] at e1; cases e1
      obtain ⟨pp, q1, q2, _⟩ := hi.tim tid t htid
      rw [e2, hp] at q1; cases q1
      exact pipeOk_key q2 hok
    unfold view
    simp only [View.mk.injEq, and_true]
    rw [hlook]
    constructor
    · cases hlk : s.pipes.lookup k with
      | none => rfl
      | some p' =>
        simp only [Option.bind_some]
        rw [List.getElem?_set_ne (hpne p' hlk)]
        cases hp2 : s.heap[p']? with
        | none => rfl
        | some pp =>
          simp only [Option.map_some, Option.some.injEq, Prod.mk.injEq, true_and]
          cases hc2 : pp.cleanup with
          | none => rfl
          | some ti =>
            simp only [Option.map_some, Option.some.injEq]
            rw [loc_set htid (by rfl)]
    · rw [sel_set htid (by rfl), if_neg (by rw [hkt]; exact hkk)]
      apply clocks_congr
      intro i t h1 h2 _
      rw [List.getElem?_set_ne (hne i t h1 h2)]

theorem view_fresh_other {s : State} (hi : Inv s) {pdu : TPDU} {k k' : Bytes} {n j : Nat} (hkk : k' ≠ k) :
    view k (store { s with
          calls := s.calls + 1
          pipes := mapSet s.pipes k' s.heap.length
          heap := s.heap ++ [⟨none, List.replicate n none, 0⟩] } k' s.heap.length
        (fill ⟨none, List.replicate n none, 0⟩ j ⟨s.calls, pdu⟩)) = view k s := by
  rw [store_fresh]
  have hsel : sel k (if s.timeout then s.timers ++ [⟨.armed, k', s.heap.length⟩] else s.timers) = sel k s.timers := by
    split
    · rw [sel_append]
      have : sel k [(⟨.armed, k', s.heap.length⟩ : Timer)] = [] := List.filter_cons_of_neg (by simp [hkk])
      rw [this, List.append_nil]
    · rfl
  have hlook : (mapSet s.pipes k' s.heap.length).lookup k = s.pipes.lookup k := by
    rw [lookup_set, if_neg (fun e => hkk e.symm)]
  unfold view
  simp only [View.mk.injEq, and_true]
  rw [hlook, hsel]
  constructor
  · cases hlk : s.pipes.lookup k with
    | none => rfl
    | some p' =>
      simp only [Option.bind_some]
      obtain ⟨pp, a, _⟩ := hi.cur k p' hlk
      rw [List.getElem?_append_left (get_lt a), a]
      simp only [Option.map_some, Option.some.injEq, Prod.mk.injEq, true_and]
      cases hc2 : pp.cleanup with
      | none => rfl
      | some ti =>
        simp only [Option.map_some, Option.some.injEq]
        obtain ⟨tt, b, _⟩ := hi.cl p' pp ti a hc2
        split
        · rw [loc_snoc (Nat.le_of_lt (get_lt b))]
        · rfl
  · apply clocks_congr
    intro i t h1 h2 _
    obtain ⟨pp, q1, _⟩ := hi.tim i t h1
    rw [List.getElem?_append_left (get_lt q1)]

/-- The key of the message a TPDU is a segment of, if it is one. -/
def OfKey (k : Bytes) (pdu : TPDU) : Prop := ∃ n j, SegK k n j pdu

theorem view_collect_other {s s' : State} {o : Output} {pdu : TPDU} (hi : Inv s) {k : Bytes} (hk : ¬ OfKey k pdu)
    (h : Outcome s pdu s' o) : view k s' = view k s := by
  have hne : ∀ {k' : Bytes} {n j : Nat}, SegK k' n j pdu → k' ≠ k := by
    rintro k' n j h rfl; exact hk ⟨n, j, h⟩
  cases h with
  | closed => rfl
  | single => rfl
  | range => rfl
  | dup => rfl
  | join k' n j p pipe timers hc hs hl hp hj hlen ht hn => exact view_join_other hi (hne hs) hl hp ht
  | last k' n j p pipe timers hc hs hl hp hj hlen ht hn => exact view_last_other hi (hne hs) hl hp ht
  | fresh k' n j hc hs hl => exact view_fresh_other hi (hne hs)

/-! Steps that do. -/

theorem isSome_ptr {l : List (Option Ptr)} : (∀ q ∈ pdus l, q ≠ none) ↔ l.countP Option.isSome = l.length := by
  rw [List.countP_eq_length]
  unfold pdus
  constructor
  · intro h a ha
    have := h _ (List.mem_map_of_mem ha)
    cases a with
    | none => exact absurd rfl this
    | some x => rfl
  · intro h q hq
    obtain ⟨a, ha, rfl⟩ := List.mem_map.1 hq
    have := h a ha
    cases a with
    | none => cases this
    | some x => simp

theorem received_some {l : List (Option Ptr)} {j : Nat} {q : Ptr} (h : l[j]? = some (some q)) :
    Reassembly.received (pdus l) (j + 1) = true := by
  unfold Reassembly.received
  rw [Nat.add_sub_cancel, pdus_get, h]; rfl

theorem received_none {l : List (Option Ptr)} {j : Nat} (h : l[j]? = some none) :
    Reassembly.received (pdus l) (j + 1) = false := by
  unfold Reassembly.received
  rw [Nat.add_sub_cancel, pdus_get, h]; rfl

/-- The timer of the current pipe, as a clock. -/
theorem clocks_get {s : State} {k : Bytes} {i : Nat} {t : Timer} (h : s.timers[i]? = some t) (hk : t.key = k) :
    (view k s).clocks[loc k s.timers i]? = some (clock s.heap t) := by
  unfold view; simp only
  rw [List.getElem?_map, sel_get h hk]; rfl

theorem cur_key {s : State} (hi : Inv s) {k : Bytes} {p tid : Nat} {pipe : Pipe} {t : Timer} (hl : s.pipes.lookup k = some p)
    (hp : s.heap[p]? = some pipe) (hcl : pipe.cleanup = some tid) (ht : s.timers[tid]? = some t) : t.key = k ∧ t.pipe = p := by
  obtain ⟨t', e1, e2⟩ := hi.cl p pipe tid hp hcl
  rw [ht] at e1; cases e1
  obtain ⟨pp, q1, q2, _⟩ := hi.tim tid t ht
  rw [e2, hp] at q1; cases q1
  obtain ⟨pp, a, b, _⟩ := hi.cur k p hl
  rw [hp] at a; cases a
  exact ⟨pipeOk_key q2 b, e2⟩

/-- Storing a pipe of the message itself. -/
theorem clocks_join {s : State} (hi : Inv s) {pipe pipe' : Pipe} {k : Bytes} {p : Nat} {timers : List Timer}
    (hl : s.pipes.lookup k = some p) (hp : s.heap[p]? = some pipe) (hs : Stopped s pipe timers) :
    (sel k timers).map (clock (s.heap.set p pipe')) =
      Reassembly.cancel (view k s).clocks (pipe.cleanup.map (loc k s.timers)) ∧
    (sel k timers).length = (view k s).clocks.length ∧ timers.length = s.timers.length ∧
    (∀ i, loc k timers i = loc k s.timers i) ∧ Reassembly.ranOut (view k s).clocks (pipe.cleanup.map (loc k s.timers)) = false := by
  rcases hs with ⟨ht, hcl, rfl⟩ | ⟨tid, t, ht, hcl, htid, harm, rfl⟩
  · have hnt := hi.notime ht
    rw [hcl]
    refine ⟨?_, ?_, rfl, fun _ => rfl, rfl⟩
    · show _ = (sel k s.timers).map _
      rw [hnt]; rfl
    · unfold view; simp
  · obtain ⟨hkt, hpt⟩ := cur_key hi hl hp hcl htid
    rw [hcl]
    refine ⟨?_, ?_, by simp, fun i => loc_set htid (by rfl), ?_⟩
    · rw [sel_set htid (by rfl), if_pos hkt, map_set_clock]
      show _ = ((sel k s.timers).map (clock s.heap)).set _ _
      apply List.ext_getElem?
      intro i
      rw [List.getElem?_set, List.getElem?_set]
      simp only [List.length_map]
      split
      · rfl
      · rename_i hne
        rw [List.getElem?_map, List.getElem?_map]
        cases hu : (sel k s.timers)[i]? with
        | none => rfl
        | some u =>
          simp only [Option.map_some, Option.some.injEq]
          apply clock_state
          intro hst
          rw [List.getElem?_set_ne]
          rintro rfl
          obtain ⟨iu, hiu, hku⟩ := sel_mem (List.mem_of_getElem? hu)
          obtain ⟨pp, q1, q2, q3, _⟩ := hi.tim iu u hiu
          rw [hp] at q1; cases q1
          have := (q3 (by rcases hst with h | h <;> rw [h] <;> simp)).1
          rw [hcl] at this; cases this
          rw [htid] at hiu; cases hiu
          rw [harm] at hst; simp at hst
    · rw [sel_set htid (by rfl), if_pos hkt, List.length_set]
      unfold view; simp
    · unfold Reassembly.ranOut
      simp only [Option.map_some]
      rw [clocks_get htid hkt]
      unfold clock; rw [harm]

theorem view_join {s : State} (hi : Inv s) {pdu : TPDU} {k : Bytes} {n j p : Nat} {pipe : Pipe} {timers : List Timer}
    (hc : s.closed = false) (hseg : SegK k n j pdu)
    (hl : s.pipes.lookup k = some p) (hp : s.heap[p]? = some pipe)
    (hj : pipe.segments[j]? = some none) (hlen : pipe.segments.length = n) (hs : Stopped s pipe timers)
    (hn : pipe.frags + 1 < n) :
    Reassembly.segment s.timeout n (view k s) (j + 1) pdu =
      (view k (store { s with calls := s.calls + 1, timers := timers } k p (fill pipe j ⟨s.calls, pdu⟩)), .returned [] none) := by
  obtain ⟨pp, a, hok, _, htf, _⟩ := hi.cur k p hl
  rw [hp] at a; cases a
  have hplt := get_lt hp
  have hok' : PipeOk k (fill pipe j ⟨s.calls, pdu⟩) := pipeOk_fill hok.frags hok.seg hj hlen hseg
  unfold Reassembly.segment
  rw [show (view k s).closed = s.closed from rfl, hc, view_pending hl hp]
  simp only [Bool.false_eq_true, if_false]
  rw [received_none hj, Nat.add_sub_cancel]
  simp only [Bool.false_eq_true, if_false]
  obtain ⟨c1, c2, c3, c4, c5⟩ := clocks_join (pipe' := { fill pipe j ⟨s.calls, pdu⟩ with
    cleanup := if s.timeout then some s.timers.length else pipe.cleanup }) hi hl hp hs
  rw [c5]
  simp only [Bool.false_eq_true, if_false]
  rw [if_neg]
  · rw [← c1]
    unfold store Reassembly.wait
    rcases Bool.eq_false_or_eq_true s.timeout with ht | ht
    · simp only [ht, if_true]
      unfold view
      simp only [Prod.mk.injEq, View.mk.injEq, and_true]
      rw [hl]
      simp only [Option.bind_some]
      rw [List.getElem?_set_self hplt]
      simp only [Option.map_some, Option.some.injEq, Prod.mk.injEq]
      refine ⟨⟨?_, ?_⟩, ?_⟩
      · exact (pdus_set pipe.segments j ⟨s.calls, pdu⟩).symm
      · rw [List.length_map, loc_snoc (Nat.le_refl _), loc_length]
      · rw [sel_append, List.map_append, c3]
        have : sel k [(⟨.armed, k, p⟩ : Timer)] = [⟨.armed, k, p⟩] := List.filter_cons_of_pos (by simp)
        rw [this]
        rfl
    · simp only [ht, Bool.false_eq_true, if_false]
      unfold view
      simp only [Prod.mk.injEq, View.mk.injEq, and_true]
      rw [hl]
      simp only [Option.bind_some]
      rw [List.getElem?_set_self hplt]
      simp only [Option.map_some, Option.some.injEq, Prod.mk.injEq]
      refine ⟨⟨?_, ?_⟩, ?_⟩
      · exact (pdus_set pipe.segments j ⟨s.calls, pdu⟩).symm
      · show none = pipe.cleanup.map _
        rw [htf ht]; rfl
      · rfl
  · have h : pdus (pipe.segments.set j (some ⟨s.calls, pdu⟩)) = (pdus pipe.segments).set j (some pdu) := pdus_set _ _ _
    rw [← h, isSome_ptr]
    have := hok'.frags
    show ¬ (fill pipe j ⟨s.calls, pdu⟩).segments.countP _ = (fill pipe j ⟨s.calls, pdu⟩).segments.length
    rw [← this]
    show ¬ pipe.frags + 1 = (pipe.segments.set j _).length
    rw [List.length_set]
    omega

theorem view_last {s : State} (hi : Inv s) {pdu : TPDU} {k : Bytes} {n j p : Nat} {pipe : Pipe} {timers : List Timer}
    (hc : s.closed = false) (hseg : SegK k n j pdu)
    (hl : s.pipes.lookup k = some p) (hp : s.heap[p]? = some pipe)
    (hj : pipe.segments[j]? = some none) (hlen : pipe.segments.length = n) (hs : Stopped s pipe timers)
    (hn : pipe.frags + 1 = n) :
    Reassembly.segment s.timeout n (view k s) (j + 1) pdu =
      (view k { s with calls := s.calls + 1, timers := timers, pipes := mapDelete s.pipes k,
                       heap := s.heap.set p (fill pipe j ⟨s.calls, pdu⟩) },
        .returned (pdus (fill pipe j ⟨s.calls, pdu⟩).segments) none) := by
  obtain ⟨pp, a, hok, _, htf, _⟩ := hi.cur k p hl
  rw [hp] at a; cases a
  have hok' : PipeOk k (fill pipe j ⟨s.calls, pdu⟩) := pipeOk_fill hok.frags hok.seg hj hlen hseg
  have h : pdus (pipe.segments.set j (some ⟨s.calls, pdu⟩)) = (pdus pipe.segments).set j (some pdu) := pdus_set _ _ _
  unfold Reassembly.segment
  rw [show (view k s).closed = s.closed from rfl, hc, view_pending hl hp]
  simp only [Bool.false_eq_true, if_false]
  rw [received_none hj, Nat.add_sub_cancel]
  simp only [Bool.false_eq_true, if_false]
  obtain ⟨c1, c2, c3, c4, c5⟩ := clocks_join (pipe' := fill pipe j ⟨s.calls, pdu⟩) hi hl hp hs
  rw [c5]
  simp only [Bool.false_eq_true, if_false]
  rw [if_pos]
  · rw [← c1]
    unfold view
    simp only [Prod.mk.injEq, View.mk.injEq, and_true]
    refine ⟨?_, ?_⟩
    · rw [lookup_delete, if_pos rfl]; rfl
    · exact congrArg (fun x => Result.returned x none) h.symm
  · rw [← h, isSome_ptr]
    have := hok'.frags
    show (fill pipe j ⟨s.calls, pdu⟩).segments.countP _ = (pipe.segments.set j _).length
    rw [← this]
    show pipe.frags + 1 = (pipe.segments.set j _).length
    rw [List.length_set]
    omega

theorem view_fresh {s : State} (hi : Inv s) {pdu : TPDU} {k : Bytes} {n j : Nat} (hc : s.closed = false)
    (hl : s.pipes.lookup k = none ∨ ∃ (p : Nat) (pipe : Pipe) (tid : Nat) (t : Timer), s.pipes.lookup k = some p ∧
      s.heap[p]? = some pipe ∧ pipe.segments[j]? = some none ∧ pipe.cleanup = some tid ∧ s.timers[tid]? = some t ∧
      t.state = .fired) :
    Reassembly.segment s.timeout n (view k s) (j + 1) pdu =
      (view k (store { s with
          calls := s.calls + 1
          pipes := mapSet s.pipes k s.heap.length
          heap := s.heap ++ [⟨none, List.replicate n none, 0⟩] } k s.heap.length
        (fill ⟨none, List.replicate n none, 0⟩ j ⟨s.calls, pdu⟩)), .returned [] none) := by
  have key : Reassembly.segment s.timeout n (view k s) (j + 1) pdu =
      (Reassembly.wait s.timeout (view k s) ((List.replicate n none).set j (some pdu)), .returned [] none) := by
    unfold Reassembly.segment
    rw [show (view k s).closed = s.closed from rfl, hc]
    simp only [Bool.false_eq_true, if_false]
    rcases hl with hl | ⟨p, pipe, tid, t, g1, g2, g3, g4, g5, g6⟩
    · rw [view_pending_none hl]
      simp only [Nat.add_sub_cancel]
    · rw [view_pending g1 g2]
      simp only
      rw [received_none g3]
      simp only [Bool.false_eq_true, if_false]
      have : Reassembly.ranOut (view k s).clocks (pipe.cleanup.map (loc k s.timers)) = true := by
        obtain ⟨hkt, _⟩ := cur_key hi g1 g2 g4 g5
        rw [g4]
        unfold Reassembly.ranOut
        simp only [Option.map_some]
        rw [clocks_get g5 hkt]
        unfold clock; rw [g6]
      rw [this]
      simp only [Nat.add_sub_cancel, if_true]
  rw [key, store_fresh]
  have hcl : ∀ x : Pipe, (sel k s.timers).map (clock (s.heap ++ [x])) = (sel k s.timers).map (clock s.heap) := by
    intro x
    apply clocks_congr
    intro i t h1 h2 _
    obtain ⟨pp, q1, _⟩ := hi.tim i t h1
    rw [List.getElem?_append_left (get_lt q1)]
  have hpd : pdus ((List.replicate n none).set j (some ⟨s.calls, pdu⟩)) = (List.replicate n none).set j (some pdu) := by
    rw [pdus_set, pdus_replicate]
  unfold Reassembly.wait
  rcases Bool.eq_false_or_eq_true s.timeout with ht | ht
  · simp only [ht, if_true]
    unfold view
    simp only [Prod.mk.injEq, View.mk.injEq, and_true]
    rw [lookup_set, if_pos rfl]
    simp only [Option.bind_some, List.getElem?_concat_length, Option.map_some, Option.some.injEq, Prod.mk.injEq]
    refine ⟨⟨hpd.symm, ?_⟩, ?_⟩
    · rw [List.length_map, loc_snoc (Nat.le_refl _), loc_length]
    · rw [sel_append, List.map_append, hcl]
      have : sel k [(⟨.armed, k, s.heap.length⟩ : Timer)] = [⟨.armed, k, s.heap.length⟩] := List.filter_cons_of_pos (by simp)
      rw [this]
      rfl
  · simp only [ht, Bool.false_eq_true, if_false]
    unfold view
    simp only [Prod.mk.injEq, View.mk.injEq, and_true]
    rw [lookup_set, if_pos rfl]
    simp only [Option.bind_some, List.getElem?_concat_length, Option.map_some, Option.some.injEq, Prod.mk.injEq]
    exact ⟨⟨hpd.symm, rfl⟩, (hcl _).symm⟩

theorem view_collect {s s' : State} {o : Output} {pdu : TPDU} (hi : Inv s) {k : Bytes} {n j : Nat} (hk : SegK k n j pdu)
    (h : Outcome s pdu s' o) :
    Reassembly.segment s.timeout n (view k s) (j + 1) pdu = (view k s', result o) := by
  cases h with
  | closed hc =>
    unfold Reassembly.segment
    rw [if_pos (show (view k s).closed = true from hc)]
    rfl
  | single hc hm =>
    obtain ⟨ref, h1, _⟩ := hk
    exact absurd ⟨_, h1.info, h1.multi⟩ hm
  | range c hc hci h2 hr =>
    obtain ⟨ref, h1, _⟩ := hk
    have := h1.info
    rw [hci] at this; cases this
    have := h1.pos
    have := h1.le
    simp only at hr
    omega
  | dup k' n' j' p pipe ptr hc hs hl hp hj =>
    obtain ⟨rfl, rfl, rfl⟩ := segK_inj hk hs
    unfold Reassembly.segment
    rw [if_neg (by rw [show (view k s).closed = s.closed from rfl, hc]; simp), view_pending hl hp]
    simp only
    rw [received_some hj]
    rfl
  | join k' n' j' p pipe timers hc hs hl hp hj hlen ht hn =>
    obtain ⟨rfl, rfl, rfl⟩ := segK_inj hk hs
    exact view_join hi hc hs hl hp hj hlen ht hn
  | last k' n' j' p pipe timers hc hs hl hp hj hlen ht hn =>
    obtain ⟨rfl, rfl, rfl⟩ := segK_inj hk hs
    exact view_last hi hc hs hl hp hj hlen ht hn
  | fresh k' n' j' hc hs hl =>
    obtain ⟨rfl, rfl, rfl⟩ := segK_inj hk hs
    exact view_fresh hi hc hl

end Verif.Proofs.Coll
