import Verif.Proofs.CollArr
import Verif.Proofs.CollClose

/-! C48-C54, C59: the Collector.  Histories are lists of events that happen to a new Collector, see
`Verif.Model.Collector.Event`; the results are found at the same positions of the list of outputs. -/

namespace Verif.Props

open Verif.Model Verif.Model.Collector Verif.Spec Verif.Proofs Verif.Proofs.Coll
open Verif.Spec.Reassembly (Parts Input Result)

/-! Examples used beside the theorems. -/

/-- Segment `seq` of `count` of a delivery from "1:2". -/
def exSeg (ref count seq : UInt8) : TPDU :=
  { Direction := MT, FirstOctet := 0x40, OA := ⟨0x91, [0x31, 0x3a, 0x32]⟩, UDH := [⟨0, [ref, count, seq]⟩], UD := [seq] }

/-- A delivery in one TPDU. -/
def exSingle : TPDU := { Direction := MT, OA := ⟨0x91, [0x31]⟩, UD := [0x41] }

/-- The message of three segments with reference 7. -/
def exIdent : Ident := ⟨SmsDeliver, ⟨0x91, [0x31, 0x3a, 0x32]⟩, 7, 3⟩

theorem exSegments : SegmentsOf exIdent [exSeg 7 3 1, exSeg 7 3 2, exSeg 7 3 3] where
  count := rfl
  multi := by decide
  seg := by
    intro j pdu h
    match j with
    | 0 => cases h; exact segOf_some.1 (by decide)
    | 1 => cases h; exact segOf_some.1 (by decide)
    | 2 => cases h; exact segOf_some.1 (by decide)
    | j + 3 => simp at h

theorem exFine (a b c : UInt8) : FineEvent (.collect (exSeg a b c)) := fun _ => .inr (by show smsType (FirstOctet.MTI 0x40) MT = SmsDeliver; decide)

theorem exFineSingle : FineEvent (.collect exSingle) := fun _ => .inr rfl

/-! C48 -/

/-- C48: a Collector, whatever has happened to it before, that is not closed and has nothing pending of the
message, is given the segments of the message in any order.  The first calls return nothing, and the last one
returns all segments, in sequence; then nothing is pending of the message. -/
theorem C48_any_order (timeout handler : Bool) (es : List Event) (hes : ∀ e ∈ es, FineEvent e) (s : State) (os : List Output)
    (h : run (New timeout handler) es = .ok (s, os)) (hc : s.closed = false)
    (m : Ident) (hp : (Pipes s).lookup (keyOf m) = none)
    (segs arrival : List TPDU) (hm : SegmentsOf m segs) (ha : arrival.Perm segs) :
    ∃ s' os', run s (arrival.map .collect) = .ok (s', os') ∧
      os'.map result = List.replicate (m.count - 1) (.returned [] none) ++ [.returned (segs.map some) none] ∧
      (Pipes s').lookup (keyOf m) = none := by
  have hi := (hist_run hes h).inv
  have hall : AllOf m arrival := by
    intro pdu hpdu
    obtain ⟨j, _, h2⟩ := segs_find hm (ha.mem_iff.1 hpdu)
    exact ⟨j + 1, segOf_some.1 h2⟩
  have hf : ∀ e ∈ arrival.map Event.collect, FineEvent e := by
    intro e he
    obtain ⟨pdu, hpdu, rfl⟩ := List.mem_map.1 he
    exact segmentOf_fine (hall pdu hpdu).choose_spec
  obtain ⟨s', os', h1, h2⟩ := watch_run m _ hi hf
  obtain ⟨s'', os'', h1', hi', _⟩ := run_ok _ hi hf
  rw [h1] at h1'; cases h1'
  obtain ⟨w1, w2⟩ := watch_all m arrival hall h1
  rw [w1, w2] at h2
  obtain ⟨r1, r2, r3⟩ := run_perm s.timeout s.handler m (view (keyOf m) s) hc (view_pending_none hp) hm ha
  rw [h2] at r1 r2 r3
  exact ⟨s', os', h1, r1, view_idle hi' r2⟩

/-- Beside C48: three segments, last first, after another message has been started. -/
example : ∃ s os, run (New true true) [.collect (exSeg 8 2 1)] = .ok (s, os) ∧ s.closed = false ∧
    (Pipes s).lookup (keyOf exIdent) = none ∧ SegmentsOf exIdent [exSeg 7 3 1, exSeg 7 3 2, exSeg 7 3 3] ∧
    [exSeg 7 3 3, exSeg 7 3 1, exSeg 7 3 2].Perm [exSeg 7 3 1, exSeg 7 3 2, exSeg 7 3 3] :=
  ⟨_, _, rfl, rfl, by decide, exSegments, by decide⟩

/-- C48, with repetitions: `arrived` are segments of the message, of which some may be repeated, that are not
all of the message yet.  Then another one is given to the Collector.  If it is a repetition it is rejected,
else if it is the last one, the segments are returned in sequence, for each number the one that came first,
else nothing is returned. -/
theorem C48_repeated (timeout handler : Bool) (es : List Event) (hes : ∀ e ∈ es, FineEvent e) (s : State) (os : List Output)
    (h : run (New timeout handler) es = .ok (s, os)) (hc : s.closed = false)
    (m : Ident) (hp : (Pipes s).lookup (keyOf m) = none)
    (arrived : List TPDU) (hall : ∀ pdu ∈ arrived, ∃ seq, SegmentOf m seq pdu) (hcov : ¬ Covered m arrived)
    (pdu : TPDU) (seq : Nat) (hs : SegmentOf m seq pdu) :
    ∃ s1 os1 s2 o, run s (arrived.map .collect) = .ok (s1, os1) ∧ Collect s1 pdu = .ok (s2, o) ∧
      result o = if firstOf m arrived seq ≠ none then .returned [] (some .duplicateSegment)
        else .returned (if ∀ q ∈ partsOf m (arrived ++ [pdu]), q ≠ none then partsOf m (arrived ++ [pdu]) else []) none := by
  have hi := (hist_run hes h).inv
  have fine : ∀ l : List TPDU, AllOf m l → ∀ e ∈ l.map Event.collect, FineEvent e := by
    intro l hl e he
    obtain ⟨pdu, hpdu, rfl⟩ := List.mem_map.1 he
    exact segmentOf_fine (hl pdu hpdu).choose_spec
  obtain ⟨s1, os1, h1, h2⟩ := watch_run m _ hi (fine arrived hall)
  obtain ⟨s1', os1', h1', hi1, _⟩ := run_ok _ hi (fine arrived hall)
  rw [h1] at h1'; cases h1'
  obtain ⟨s2, o, h3, _, ht, hh, hv⟩ := step_ok hi1 (e := .collect pdu) (segmentOf_fine hs)
  have hv := hv m
  unfold seen at hv
  simp only [segOf_some.2 hs, Option.map_some] at hv
  refine ⟨s1, os1, s2, o, h1, h3, ?_⟩
  obtain ⟨w1, w2⟩ := watch_all m arrived hall h1
  rw [w1, w2] at h2
  have hr := (run_next s.timeout s.handler m (view (keyOf m) s) hc (view_pending_none hp) arrived pdu seq hall hs hcov).1
  rw [List.map_append, List.map_cons, List.map_nil, rrun_snoc] at hr
  have hinp : inp m pdu = .segment seq pdu := by unfold inp; rw [segOf_some.2 hs]; rfl
  rw [h2, hinp] at hr
  have hr := List.append_cancel_left hr
  obtain ⟨s1'', os1'', h1'', _, _, ht1, hh1⟩ := run_ok _ hi (fine arrived hall)
  rw [h1] at h1''; cases h1''
  rw [← ht1, ← hh1, hv] at hr
  exact (List.cons.inj hr).1

/-- Beside C48: the first two segments, the first one twice, have arrived; then the third one. -/
example : (∀ pdu ∈ [exSeg 7 3 2, exSeg 7 3 1, { exSeg 7 3 2 with UD := [] }], ∃ seq, SegmentOf exIdent seq pdu) ∧
    ¬ Covered exIdent [exSeg 7 3 2, exSeg 7 3 1, { exSeg 7 3 2 with UD := [] }] ∧ SegmentOf exIdent 3 (exSeg 7 3 3) ∧
    (∀ q ∈ partsOf exIdent [exSeg 7 3 2, exSeg 7 3 1, { exSeg 7 3 2 with UD := [] }, exSeg 7 3 3], q ≠ none) ∧
    firstOf exIdent [exSeg 7 3 2, exSeg 7 3 1, { exSeg 7 3 2 with UD := [] }] 2 = some (exSeg 7 3 2) := by
  refine ⟨?_, ?_, segOf_some.1 (by decide), by decide, by decide⟩
  · intro pdu h
    simp only [List.mem_cons, List.not_mem_nil, or_false] at h
    rcases h with rfl | rfl | rfl
    · exact ⟨2, segOf_some.1 (by decide)⟩
    · exact ⟨1, segOf_some.1 (by decide)⟩
    · exact ⟨2, segOf_some.1 (by decide)⟩
  · intro h
    exact h 3 (by decide) (by decide) (by decide)

/-! C53 -/

/-- C53: what a message gets to see of a Collector that is used for many messages at a time is what it would
get from the reassembly of that message alone, given the events that concern it. -/
theorem C53_alone (timeout handler : Bool) (es : List Event) (hes : ∀ e ∈ es, FineEvent e) (m : Ident) :
    (watch m (New timeout handler) es).map (·.2) =
      (Reassembly.run timeout handler m.count Reassembly.start ((watch m (New timeout handler) es).map (·.1))).2 := by
  obtain ⟨s', os, h1, h2⟩ := watch_run m es (inv_new timeout handler) hes
  have : (New timeout handler).timeout = timeout ∧ (New timeout handler).handler = handler := ⟨rfl, rfl⟩
  rw [this.1, this.2, view_new] at h2
  rw [h2]

/-- C53: histories in which the same events concern a message give the same results for the message, whatever
other messages they are interleaved with. -/
theorem C53_isolated (timeout handler : Bool) (es es' : List Event) (hes : ∀ e ∈ es, FineEvent e)
    (hes' : ∀ e ∈ es', FineEvent e) (m : Ident)
    (h : (watch m (New timeout handler) es).map (·.1) = (watch m (New timeout handler) es').map (·.1)) :
    (watch m (New timeout handler) es).map (·.2) = (watch m (New timeout handler) es').map (·.2) := by
  rw [C53_alone timeout handler es hes m, C53_alone timeout handler es' hes' m, h]

/-- Beside C53: two histories that differ for other messages only; the timers have other numbers. -/
example : (watch exIdent (New true true) [.collect (exSeg 8 2 1), .collect (exSeg 7 3 1), .collect exSingle, .fire 0, .fire 1,
      .collect (exSeg 7 3 2), .collect (exSeg 8 2 1)]).map (·.1) =
    (watch exIdent (New true true) [.collect (exSeg 7 3 1), .fire 0, .collect (exSeg 7 3 2)]).map (·.1) := by rfl

/-- C53: messages that differ in type, address, reference or number of segments are filed under different
keys, whatever the octets of the addresses. -/
theorem C53_keys (m m' : Ident) (h : keyOf m = keyOf m') : m = m' := keyOf_inj h

/-- C53: a key is filed in the map for segments of one message only, so that what `Pipes` shows under the key
of a message is made of segments of that message. -/
theorem C53_pipes (timeout handler : Bool) (es : List Event) (hes : ∀ e ∈ es, FineEvent e) (s : State) (os : List Output)
    (h : run (New timeout handler) es = .ok (s, os)) (key : List UInt8) (p : Nat) (hp : (Pipes s).lookup key = some p) :
    ∃ m, key = keyOf m ∧ (deref s p).length = m.count ∧ (∃ (j : Nat) (ptr : Ptr), (deref s p)[j]? = some (some ptr)) ∧
      ∀ (j : Nat) (ptr : Ptr), (deref s p)[j]? = some (some ptr) → SegmentOf m (j + 1) ptr.pdu := by
  have hi := (hist_run hes h).inv
  obtain ⟨pipe, h1, h2, _⟩ := hi.cur key p hp
  rw [deref_of h1]
  obtain ⟨j, ptr, hj⟩ := h2.nonempty
  obtain ⟨m, m1, m2, m3⟩ := of_segK (h2.seg j ptr hj)
  refine ⟨m, m3.symm, m2.symm, ⟨j, ptr, hj⟩, ?_⟩
  intro j' ptr' hj'
  obtain ⟨m', m1', m2', m3'⟩ := of_segK (h2.seg j' ptr' hj')
  have := keyOf_inj (m3'.trans m3.symm)
  subst this
  exact m1'

/-! C59 -/

/-- C59: in a history of any number of messages, all segments of a message are collected, each once and in any
order, the Collector is not closed and no timer of the message runs out.  Then the message is returned exactly
once, complete and in sequence, by the call for the segment that came last. -/
theorem C59_once (timeout handler : Bool) (es : List Event) (hes : ∀ e ∈ es, FineEvent e) (s : State) (os : List Output)
    (h : run (New timeout handler) es = .ok (s, os)) (m : Ident) (segs : List TPDU) (hm : SegmentsOf m segs)
    (hall : ((collected es).filter (fun pdu => (segOf m pdu).isSome)).Perm segs)
    (hcalm : ∀ i r, (i, r) ∈ watch m (New timeout handler) es → ∃ seq pdu, i = .segment seq pdu) :
    deliveries m os = [segs.map some] ∧
    (watch m (New timeout handler) es).map (·.2) =
      List.replicate (m.count - 1) (.returned [] none) ++ [.returned (segs.map some) none] := by
  have h2 : (watch m (New timeout handler) es).map (·.2) =
      List.replicate (m.count - 1) (.returned [] none) ++ [.returned (segs.map some) none] := by
    rw [C53_alone timeout handler es hes m, watch_segments m es h hcalm]
    exact (run_perm timeout handler m Reassembly.start rfl rfl hm hall).1
  refine ⟨?_, h2⟩
  rw [deliveries_watch m es (inv_new timeout handler) hes h, h2, whole_append]
  have hne : segs.map some ≠ ([] : Parts) := by
    intro e
    have := hm.count
    have := hm.multi
    have : segs = [] := List.map_eq_nil_iff.1 e
    subst this
    simp at *; omega
  have h3 : whole (List.replicate (m.count - 1) (.returned [] none)) = [] := by
    unfold whole
    rw [List.filterMap_eq_nil_iff]
    intro r hr
    rw [(List.mem_replicate.1 hr).2]
    rfl
  rw [h3]
  simp [whole, hne]

/-- C59 without timeouts: it suffices that the Collector is not closed. -/
theorem C59_once_no_timeout (handler : Bool) (es : List Event) (hes : ∀ e ∈ es, FineEvent e) (s : State) (os : List Output)
    (h : run (New false handler) es = .ok (s, os)) (hopen : Event.close ∉ es) (m : Ident) (segs : List TPDU)
    (hm : SegmentsOf m segs) (hall : ((collected es).filter (fun pdu => (segOf m pdu).isSome)).Perm segs) :
    deliveries m os = [segs.map some] := by
  refine (C59_once false handler es hes s os h m segs hm hall ?_).1
  -- there are no timers
  have main : ∀ (es : List Event) {s : State}, Inv s → s.timeout = false → (∀ e ∈ es, FineEvent e) → Event.close ∉ es →
      ∀ i r, (i, r) ∈ watch m s es → ∃ seq pdu, i = .segment seq pdu := by
    intro es
    induction es with
    | nil => intro s _ _ _ _ i r h; cases h
    | cons e es ih =>
      intro s hi ht hf hcl i r h
      obtain ⟨s1, o, h1, h2, c1, c2, _⟩ := step_ok hi (hf e List.mem_cons_self)
      rw [watch_cons h1] at h
      rcases List.mem_append.1 h with h | h
      · have htm : ∀ k, timerOf m s k = none := by
          intro k; unfold timerOf; rw [hi.notime ht]; rfl
        cases e with
        | collect pdu =>
          unfold seen at h
          simp only at h
          cases hs : segOf m pdu with
          | none => rw [hs] at h; cases h
          | some seq =>
            rw [hs] at h
            simp only [Option.map_some, Option.toList_some, List.mem_cons, List.not_mem_nil, or_false, Prod.mk.injEq] at h
            exact ⟨seq, pdu, h.1⟩
        | fire k => unfold seen at h; simp only [htm] at h; cases h
        | expire k => unfold seen at h; simp only [htm] at h; cases h
        | handle k => unfold seen at h; simp only [htm] at h; cases h
        | close => exact absurd List.mem_cons_self hcl
      · exact ih h2 (c1.trans ht) (fun e' he' => hf e' (List.mem_cons_of_mem _ he')) (fun hh => hcl (List.mem_cons_of_mem _ hh)) i r h
  exact main es (inv_new false handler) rfl hes hopen

/-- Beside C59: two messages interleaved, one of which times out. -/
example : ((collected [.collect (exSeg 7 3 3), .collect (exSeg 8 2 1), .collect (exSeg 7 3 1), .fire 1, .collect exSingle, .expire 1,
      .collect (exSeg 7 3 2), .handle 1]).filter (fun pdu => (segOf exIdent pdu).isSome)).Perm [exSeg 7 3 1, exSeg 7 3 2, exSeg 7 3 3] ∧
    ∀ i r, (i, r) ∈ watch exIdent (New true true) [.collect (exSeg 7 3 3), .collect (exSeg 8 2 1), .collect (exSeg 7 3 1), .fire 1, .collect exSingle, .expire 1,
      .collect (exSeg 7 3 2), .handle 1] → ∃ seq pdu, i = .segment seq pdu := by
  refine ⟨by decide, ?_⟩
  have : watch exIdent (New true true) [.collect (exSeg 7 3 3), .collect (exSeg 8 2 1), .collect (exSeg 7 3 1), .fire 1, .collect exSingle, .expire 1,
      .collect (exSeg 7 3 2), .handle 1] =
      [(.segment 3 (exSeg 7 3 3), .returned [] none), (.segment 1 (exSeg 7 3 1), .returned [] none),
       (.segment 2 (exSeg 7 3 2), .returned [some (exSeg 7 3 1), some (exSeg 7 3 2), some (exSeg 7 3 3)] none)] := by rfl
  rw [this]
  intro i r h
  simp only [List.mem_cons, Prod.mk.injEq, List.not_mem_nil, or_false] at h
  rcases h with ⟨rfl, _⟩ | ⟨rfl, _⟩ | ⟨rfl, _⟩
  · exact ⟨_, _, rfl⟩
  · exact ⟨_, _, rfl⟩
  · exact ⟨_, _, rfl⟩

end Verif.Props
