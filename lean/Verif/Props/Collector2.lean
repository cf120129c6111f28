import Verif.Props.Collector
import Verif.Proofs.CollPlace
import Verif.Proofs.CollSafe
import Verif.Proofs.CollPrefix

/-! C49-C52, C54: what a Collector returns, keeps and hands over. -/

namespace Verif.Props

open Verif.Model Verif.Model.Collector Verif.Spec Verif.Proofs Verif.Proofs.Coll

/-! C49 -/

/-- C49: whatever is collected, a call of `Collect` that returns TPDUs returns the TPDU it was given, which is
not one of several, or all segments of a message, in sequence, all of which had been given to it, the last one
by this call. -/
theorem C49_complete (timeout handler : Bool) (es : List Event) (hes : ∀ e ∈ es, FineEvent e) (s : State) (os : List Output)
    (h : run (New timeout handler) es = .ok (s, os)) (c : Nat) (d : List (Option Ptr)) (err : Option Err)
    (hr : (replies os)[c]? = some (d, err)) (hd : d ≠ []) :
    err = none ∧
    ((∃ pdu, (collected es)[c]? = some pdu ∧ ¬ MultiPart pdu ∧ d = [some ⟨c, pdu⟩]) ∨
     ∃ m, d.length = m.count ∧
      (∀ j, j < m.count → ∃ ptr, d[j]? = some (some ptr) ∧ SegmentOf m (j + 1) ptr.pdu ∧
        (collected es)[ptr.id]? = some ptr.pdu ∧ ptr.id ≤ c) ∧
      ∃ pdu, (collected es)[c]? = some pdu ∧ some ⟨c, pdu⟩ ∈ d) := by
  have hh := hist_run hes h
  obtain ⟨pdu, hown⟩ := hh.own c d err hr hd
  obtain ⟨i, hi⟩ := List.mem_iff_getElem?.1 (replies_mem (List.mem_of_getElem? hr))
  obtain ⟨rfl, hcase⟩ := hh.ret i d err hi hd
  refine ⟨rfl, ?_⟩
  rcases hcase with ⟨c', pdu', rfl, hm, hcol, _, _⟩ | ⟨p, pipe, hp, hfull, rfl⟩
  · left
    simp only [List.mem_cons, Option.some.injEq, Ptr.mk.injEq, List.not_mem_nil, or_false] at hown
    obtain ⟨rfl, rfl⟩ := hown
    exact ⟨pdu, hcol, hm, rfl⟩
  · right
    obtain ⟨⟨k, hok⟩, _⟩ := hh.inv.heap p pipe hp
    obtain ⟨j0, hj0⟩ := mem_slot hown
    obtain ⟨m, m1, m2, m3⟩ := of_segK (hok.seg j0 _ hj0)
    refine ⟨m, m2.symm, ?_, pdu, (hh.genuine p j0 _ ⟨pipe, hp, hj0⟩).1, hown⟩
    intro j hj
    obtain ⟨ptr, hptr⟩ := slot_full hok hfull j (by omega)
    obtain ⟨m', m1', m2', m3'⟩ := of_segK (hok.seg j ptr hptr)
    have := keyOf_inj (m3'.trans m3.symm)
    subst this
    obtain ⟨g1, g2⟩ := hh.genuine p j ptr ⟨pipe, hp, hptr⟩
    refine ⟨ptr, hptr, m1', g1, ?_⟩
    exact reply_earlier hes h hr (List.mem_of_getElem? hptr)

/-- Beside C49: both kinds of results. -/
example : ∃ s os, run (New true true) [.collect (exSeg 7 2 2), .collect exSingle, .collect (exSeg 8 2 1), .fire 0, .collect (exSeg 8 2 2)] = .ok (s, os) ∧
    (replies os)[1]? = some ([some ⟨1, exSingle⟩], none) ∧
    (replies os)[3]? = some ([some ⟨2, exSeg 8 2 1⟩, some ⟨3, exSeg 8 2 2⟩], none) := ⟨_, _, rfl, rfl, rfl⟩

/-! C50 -/

/-- C50: a segment that was accepted, that is, whose call did not fail, is at exactly one place. -/
theorem C50_one_place (timeout handler : Bool) (es : List Event) (hes : ∀ e ∈ es, FineEvent e) (s : State) (os : List Output)
    (h : run (New timeout handler) es = .ok (s, os)) (c : Nat) (d : List (Option Ptr)) (hr : (replies os)[c]? = some (d, none)) :
    ∃ pl, At os s c pl ∧ ∀ pl', At os s c pl' → pl' = pl := by
  have hh := hist_run hes h
  obtain ⟨pl, hpl⟩ := at_exists hh hr
  exact ⟨pl, hpl, fun pl' h' => at_uniq hh hpl h'⟩

/-- C50: a segment that was rejected is nowhere. -/
theorem C50_rejected (timeout handler : Bool) (es : List Event) (hes : ∀ e ∈ es, FineEvent e) (s : State) (os : List Output)
    (h : run (New timeout handler) es = .ok (s, os)) (c : Nat) (d : List (Option Ptr)) (err : Err)
    (hr : (replies os)[c]? = some (d, some err)) (pl : Place) : ¬ At os s c pl := by
  intro hpl
  obtain ⟨d', h'⟩ := at_accepted (hist_run hes h) hpl
  rw [hr] at h'; cases h'

/-- C50: what is at a place is what was collected. -/
theorem C50_genuine (timeout handler : Bool) (es : List Event) (hes : ∀ e ∈ es, FineEvent e) (s : State) (os : List Output)
    (h : run (New timeout handler) es = .ok (s, os)) :
    (∀ (i : Nat) d e ptr, os[i]? = some (.returned d e) → some ptr ∈ d → (collected es)[ptr.id]? = some ptr.pdu) ∧
    (∀ (i : Nat) d ptr, os[i]? = some (.handled d) → some ptr ∈ d → (collected es)[ptr.id]? = some ptr.pdu) ∧
    (∀ p ptr, some ptr ∈ deref s p → (collected es)[ptr.id]? = some ptr.pdu) := by
  have hh := hist_run hes h
  have slot : ∀ p ptr, some ptr ∈ deref s p → (collected es)[ptr.id]? = some ptr.pdu := by
    intro p ptr hp
    obtain ⟨j, hj⟩ := mem_slot hp
    unfold deref at hj
    cases hq : s.heap[p]? with
    | none => rw [hq] at hj; simp at hj
    | some pipe =>
      rw [hq] at hj
      exact (hh.genuine p j ptr ⟨pipe, hq, hj⟩).1
  refine ⟨?_, ?_, slot⟩
  · intro i d e ptr hi hp
    have hd : d ≠ [] := by rintro rfl; cases hp
    obtain ⟨_, hcase⟩ := hh.ret i d e hi hd
    rcases hcase with ⟨c', pdu, rfl, _, hcol, _⟩ | ⟨p, pipe, hpp, _, rfl⟩
    · simp only [List.mem_cons, Option.some.injEq, List.not_mem_nil, or_false] at hp
      subst hp
      exact hcol
    · obtain ⟨j, hj⟩ := mem_slot hp
      exact (hh.genuine p j ptr ⟨pipe, hpp, hj⟩).1
  · intro i d ptr hi hp
    obtain ⟨_, ti, t, _, _, _, rfl⟩ := hh.hand i d hi
    exact slot t.pipe ptr hp

/-- C50: a call is rejected as duplicate if and only if the Collector is open, and the segment of that number
of the same message is pending. -/
theorem C50_duplicate (timeout handler : Bool) (es : List Event) (hes : ∀ e ∈ es, FineEvent e) (s : State) (os : List Output)
    (h : run (New timeout handler) es = .ok (s, os)) (pdu : TPDU) (hf : Fine pdu) :
    (∃ s' d, Collect s pdu = .ok (s', .returned d (some .duplicateSegment))) ↔
    (s.closed = false ∧ ∃ m seq p ptr, SegmentOf m seq pdu ∧ (Pipes s).lookup (keyOf m) = some p ∧
      (deref s p)[seq - 1]? = some (some ptr) ∧ SegmentOf m seq ptr.pdu) := by
  have hi := (hist_run hes h).inv
  obtain ⟨s', o, h1, h2⟩ := collect_outcome s hi pdu hf
  rw [h1]
  constructor
  · rintro ⟨s2, d, h3⟩
    cases h3
    cases h2 with
    | dup k n j p pipe ptr hc hk hl hp hj =>
      obtain ⟨m, m1, m2, m3⟩ := of_segK hk
      obtain ⟨pipe', hp', hok, _⟩ := hi.cur k p hl
      rw [hp] at hp'; cases hp'
      refine ⟨hc, m, j + 1, p, ptr, m1, by rw [m3]; exact hl, by rw [deref_of hp]; exact hj, ?_⟩
      obtain ⟨m', m1', m2', m3'⟩ := of_segK (hok.seg j ptr hj)
      have := keyOf_inj (m3'.trans m3.symm)
      subst this
      exact m1'
  · rintro ⟨hc, m, seq, p, ptr, hs, hl, hj, _⟩
    have hl : s.pipes.lookup (keyOf m) = some p := hl
    obtain ⟨pipe, hp, hok, hinc, _⟩ := hi.cur _ p hl
    rw [deref_of hp] at hj
    have hk := segK_of hs
    have no : ∀ {k n j} , SegK k n j pdu → k = keyOf m ∧ j = seq - 1 := by
      intro k n j hk'
      obtain ⟨e1, _, e2⟩ := segK_inj hk' hk
      exact ⟨e1, e2⟩
    cases h2 with
    | closed h => rw [hc] at h; cases h
    | single _ hm => exact absurd ⟨_, hs.1.info, hs.1.multi⟩ hm
    | range c _ hci _ hr =>
      have := hs.1.info
      rw [hci] at this; cases this
      have := hs.1.pos
      have := hs.1.le
      simp only at hr
      omega
    | dup => exact ⟨_, _, rfl⟩
    | join k n j p' pipe' timers _ hk' hl' hp' hj' =>
      obtain ⟨rfl, rfl⟩ := no hk'
      rw [hl] at hl'; cases hl'
      rw [hp] at hp'; cases hp'
      rw [hj] at hj'; cases hj'
    | last k n j p' pipe' timers _ hk' hl' hp' hj' =>
      obtain ⟨rfl, rfl⟩ := no hk'
      rw [hl] at hl'; cases hl'
      rw [hp] at hp'; cases hp'
      rw [hj] at hj'; cases hj'
    | fresh k n j _ hk' hcase =>
      obtain ⟨rfl, rfl⟩ := no hk'
      rcases hcase with hn | ⟨p', pipe', _, _, hl', hp', hj', _⟩
      · rw [hl] at hn; cases hn
      · rw [hl] at hl'; cases hl'
        rw [hp] at hp'; cases hp'
        rw [hj] at hj'; cases hj'

/-- C50: the only other reasons for rejection are a closed Collector and an impossible segment number. -/
theorem C50_errors (timeout handler : Bool) (es : List Event) (hes : ∀ e ∈ es, FineEvent e) (s : State) (os : List Output)
    (h : run (New timeout handler) es = .ok (s, os)) (pdu : TPDU) (hf : Fine pdu) (s' : State) (d : List (Option Ptr)) (err : Err)
    (hc : Collect s pdu = .ok (s', .returned d (some err))) :
    d = [] ∧ ((err = .closed ∧ s.closed = true) ∨ (err = .duplicateSegment ∧ s.closed = false) ∨
      (err = .reassemblyInconsistency ∧ s.closed = false ∧
        ∃ c, pdu.ConcatInfo = some c ∧ 2 ≤ c.segments ∧ (c.seqno < 1 ∨ c.segments < c.seqno))) := by
  have hi := (hist_run hes h).inv
  obtain ⟨s1, o, h1, h2⟩ := collect_outcome s hi pdu hf
  rw [hc] at h1
  cases h1
  cases h2 with
  | closed h => exact ⟨rfl, .inl ⟨rfl, h⟩⟩
  | range c h hci h2 hr => exact ⟨rfl, .inr (.inr ⟨rfl, h, c, hci, h2, hr⟩)⟩
  | dup _ _ _ _ _ _ h => exact ⟨rfl, .inr (.inl ⟨rfl, h⟩)⟩

/-- Beside C50: segments in all places.  Call 0 is still expiring, 1 is pending, 2 and 6 were returned, 4 was handed
over, 5 was rejected. -/
example : ∃ s os, run (New true true) [.collect (exSeg 7 3 2), .fire 0, .collect (exSeg 7 3 1), .collect (exSeg 8 2 1), .expire 0,
      .collect exSingle, .collect (exSeg 9 2 1), .collect (exSeg 9 2 1), .fire 3, .expire 3, .handle 3, .collect (exSeg 8 2 2)] = .ok (s, os) ∧
    At os s 0 (.expiring 0 1) ∧ At os s 1 (.pending (keyOf exIdent) 0) ∧ At os s 2 (.returned 11 0) ∧ At os s 3 (.returned 5 0) ∧
    At os s 4 (.handled 10 0) ∧ (replies os)[5]? = some ([], some .duplicateSegment) ∧ At os s 6 (.returned 11 1) :=
  ⟨_, _, rfl, ⟨_, ⟨0, exSeg 7 3 2⟩, rfl, .inl rfl, rfl, rfl⟩, ⟨_, ⟨1, exSeg 7 3 1⟩, rfl, rfl, rfl⟩, ⟨_, _, ⟨2, exSeg 8 2 1⟩, rfl, rfl, rfl⟩,
    ⟨_, _, ⟨3, exSingle⟩, rfl, rfl, rfl⟩, ⟨_, ⟨4, exSeg 9 2 1⟩, rfl, rfl, rfl⟩, rfl, ⟨_, _, ⟨6, exSeg 8 2 2⟩, rfl, rfl, rfl⟩⟩

/-! C51 -/

/-- C51: the expiry handler is called at most once for every timer. -/
theorem C51_once (timeout handler : Bool) (es : List Event) (hes : ∀ e ∈ es, FineEvent e) (s : State) (os : List Output)
    (h : run (New timeout handler) es = .ok (s, os)) (i i' timer : Nat) (d d' : List (Option Ptr))
    (h1 : es[i]? = some (.handle timer)) (h1' : es[i']? = some (.handle timer))
    (h2 : os[i]? = some (.handled d)) (h2' : os[i']? = some (.handled d')) : i = i' :=
  (hist_run hes h).hand_uniq i i' timer d d' h1 h1' h2 h2'

/-- C51: the expiry handler is called only for a timer that has fired, and with part, but not all, of one
message. -/
theorem C51_incomplete (timeout handler : Bool) (es : List Event) (hes : ∀ e ∈ es, FineEvent e) (s : State) (os : List Output)
    (h : run (New timeout handler) es = .ok (s, os)) (i : Nat) (d : List (Option Ptr)) (hi : os[i]? = some (.handled d)) :
    (∃ timer t, es[i]? = some (.handle timer) ∧ s.timers[timer]? = some t ∧ t.state = .done) ∧
    ∃ m, d.length = m.count ∧ (∃ (j : Nat) (ptr : Ptr), d[j]? = some (some ptr)) ∧ none ∈ d ∧
      ∀ (j : Nat) (ptr : Ptr), d[j]? = some (some ptr) → SegmentOf m (j + 1) ptr.pdu ∧ (collected es)[ptr.id]? = some ptr.pdu := by
  have hh := hist_run hes h
  obtain ⟨_, ti, t, he, ht, hs, rfl⟩ := hh.hand i d hi
  refine ⟨⟨ti, t, he, ht, hs⟩, ?_⟩
  obtain ⟨pipe, hp, hok, hns, _⟩ := hh.inv.tim ti t ht
  rw [deref_of hp]
  obtain ⟨j, ptr, hj⟩ := hok.nonempty
  obtain ⟨m, m1, m2, m3⟩ := of_segK (hok.seg j ptr hj)
  refine ⟨m, m2.symm, ⟨j, ptr, hj⟩, ?_, ?_⟩
  · have hlt := (hns (by rw [hs]; simp)).2
    rw [hok.frags] at hlt
    by_cases hn : none ∈ pipe.segments
    · exact hn
    · have : pipe.segments.countP Option.isSome = pipe.segments.length := by
        rw [List.countP_eq_length]
        intro q hq
        cases q with
        | none => exact absurd hq hn
        | some _ => rfl
      omega
  · intro j' ptr' hj'
    obtain ⟨m', m1', m2', m3'⟩ := of_segK (hok.seg j' ptr' hj')
    have := keyOf_inj (m3'.trans m3.symm)
    subst this
    exact ⟨m1', (hh.genuine _ j' ptr' ⟨pipe, hp, hj'⟩).1⟩

/-- C51: no segment is both handed to the expiry handler, at some time, and returned by `Collect`, at some other
time, before or after. -/
theorem C51_not_returned (timeout handler : Bool) (es : List Event) (hes : ∀ e ∈ es, FineEvent e) (s : State) (os : List Output)
    (h : run (New timeout handler) es = .ok (s, os)) (i i' : Nat) (d d' : List (Option Ptr)) (err : Option Err)
    (hi : os[i]? = some (.handled d)) (hi' : os[i']? = some (.returned d' err)) (ptr ptr' : Ptr) (hp : some ptr ∈ d)
    (hp' : some ptr' ∈ d') : ptr.id ≠ ptr'.id := by
  intro hid
  obtain ⟨j, hj⟩ := mem_slot hp
  obtain ⟨j', hj'⟩ := mem_slot hp'
  have h1 : At os s ptr.id (.handled i j) := ⟨d, ptr, hi, hj, rfl⟩
  have h2 : At os s ptr.id (.returned i' j') := ⟨d', err, ptr', hi', hj', hid.symm⟩
  cases at_uniq (hist_run hes h) h1 h2

/-- C51: without a timeout, or without a handler, no handler is called. -/
theorem C51_never (timeout handler : Bool) (hn : timeout = false ∨ handler = false) (es : List Event) (hes : ∀ e ∈ es, FineEvent e)
    (s : State) (os : List Output) (h : run (New timeout handler) es = .ok (s, os)) (i : Nat) (d : List (Option Ptr)) :
    os[i]? ≠ some (.handled d) := by
  intro hi
  have hh := hist_run hes h
  obtain ⟨s', os', h', _, _, ht, hd⟩ := run_ok es (inv_new timeout handler) hes
  rw [h] at h'; cases h'
  obtain ⟨h1, ti, t, _, h2, _⟩ := hh.hand i d hi
  rcases hn with rfl | rfl
  · rw [hh.inv.notime ht] at h2; simp at h2
  · rw [hd] at h1; cases h1

/-- C51: if there is a timeout, every pending reassembly of an open Collector has a timer, that is counting down or
has fired. -/
theorem C51_timer (handler : Bool) (es : List Event) (hes : ∀ e ∈ es, FineEvent e) (s : State) (os : List Output)
    (h : run (New true handler) es = .ok (s, os)) (hc : s.closed = false) (key : List UInt8) (p : Nat)
    (hp : (Pipes s).lookup key = some p) :
    ∃ (i : Nat) (t : Timer), s.timers[i]? = some t ∧ t.key = key ∧ t.pipe = p ∧ (t.state = .armed ∨ t.state = .fired) := by
  have hh := hist_run hes h
  obtain ⟨s', os', h', _, _, ht, _⟩ := run_ok es (inv_new true handler) hes
  rw [h] at h'; cases h'
  obtain ⟨pipe, hpp, hok, _, _, htt⟩ := hh.inv.cur key p hp
  obtain ⟨tid, t, hcl, htid, hst⟩ := htt ht
  have hk := cur_key hh.inv hp hpp hcl htid
  refine ⟨tid, t, htid, hk.1, hk.2, ?_⟩
  · rcases hst with h | h | ⟨_, h⟩
    · exact .inl h
    · exact .inr h
    · rw [hc] at h; cases h

/-- C51: when the callback of the timer of a pending reassembly runs, nothing remains pending of the message. -/
theorem C51_expired (s : State) (m : Ident) (i : Nat) (t : Timer) (ht : s.timers[i]? = some t) (hs : t.state = .fired)
    (hk : t.key = keyOf m) (hp : (Pipes s).lookup (keyOf m) = some t.pipe) :
    ∃ s', step s (.expire i) = .ok (s', .silent) ∧ (Pipes s').lookup (keyOf m) = none := by
  refine ⟨expire s i, rfl, ?_⟩
  show (expire s i).pipes.lookup (keyOf m) = none
  unfold expire
  rw [ht]
  simp only
  rw [if_pos hs]
  simp only
  have hp : s.pipes.lookup (keyOf m) = some t.pipe := hp
  rw [hk, if_pos hp, lookup_delete, if_pos rfl]

/-- C51: a segment of a message of which nothing is pending, or of which the timer has fired without the callback
having run yet (unless the segment is a repetition), starts a new reassembly, with nothing but that segment. -/
theorem C51_restart (timeout handler : Bool) (es : List Event) (hes : ∀ e ∈ es, FineEvent e) (s : State) (os : List Output)
    (h : run (New timeout handler) es = .ok (s, os)) (hc : s.closed = false) (m : Ident) (seq : Nat) (pdu : TPDU)
    (hs : SegmentOf m seq pdu)
    (hp : (Pipes s).lookup (keyOf m) = none ∨
      ∃ (p i : Nat) (t : Timer), (Pipes s).lookup (keyOf m) = some p ∧ (deref s p)[seq - 1]? = some none ∧
        s.timers[i]? = some t ∧ t.pipe = p ∧ t.state = .fired) :
    ∃ s' p', Collect s pdu = .ok (s', .returned [] none) ∧ (Pipes s').lookup (keyOf m) = some p' ∧
      deref s' p' = (List.replicate m.count none).set (seq - 1) (some ⟨s.calls, pdu⟩) ∧
      ∀ p, p < s.heap.length → deref s' p = deref s p := by
  have hi := (hist_run hes h).inv
  obtain ⟨s', o, h1, h2⟩ := collect_outcome s hi pdu (segmentOf_fine hs)
  have hk := segK_of hs
  -- the reassembly at hand is not joined
  have noj : ∀ (p : Nat) (pipe : Pipe), s.pipes.lookup (keyOf m) = some p → s.heap[p]? = some pipe →
      pipe.segments[seq - 1]? = some none ∧
      ∃ (i : Nat) (t : Timer), pipe.cleanup = some i ∧ s.timers[i]? = some t ∧ t.state = .fired ∧ s.timeout = true := by
    intro p pipe hl hpp
    rcases hp with hp | ⟨p', i, t, hl', hj, ht, hpt, hst⟩
    · have hp : s.pipes.lookup (keyOf m) = none := hp
      rw [hl] at hp; cases hp
    · have hl' : s.pipes.lookup (keyOf m) = some p' := hl'
      rw [hl] at hl'; cases hl'
      rw [deref_of hpp] at hj
      obtain ⟨pipe', hp', _, hns, _⟩ := hi.tim i t ht
      rw [hpt, hpp] at hp'; cases hp'
      refine ⟨hj, i, t, (hns (by rw [hst]; simp)).1, ht, hst, ?_⟩
      rcases Bool.eq_false_or_eq_true s.timeout with ho | ho
      · exact ho
      · rw [hi.notime ho] at ht; simp at ht
  have fin : ∀ (j : Nat), j = seq - 1 → ∃ s2 p', s2 = store { s with
          calls := s.calls + 1
          pipes := mapSet s.pipes (keyOf m) s.heap.length
          heap := s.heap ++ [⟨none, List.replicate m.count none, 0⟩] } (keyOf m) s.heap.length
        (fill ⟨none, List.replicate m.count none, 0⟩ j ⟨s.calls, pdu⟩) ∧ (Pipes s2).lookup (keyOf m) = some p' ∧
      deref s2 p' = (List.replicate m.count none).set (seq - 1) (some ⟨s.calls, pdu⟩) ∧
      ∀ p, p < s.heap.length → deref s2 p = deref s p := by
    rintro j rfl
    refine ⟨_, s.heap.length, rfl, ?_, ?_, ?_⟩
    · unfold store Pipes
      split <;> · simp only; rw [lookup_set, if_pos rfl]
    · unfold store deref
      split <;> simp [fill]
    · intro p hlt
      unfold store deref
      split <;>
      · simp only
        rw [List.getElem?_set, if_neg (by omega), List.getElem?_append_left hlt]
  cases h2 with
  | closed h => rw [hc] at h; cases h
  | single _ hm => exact absurd ⟨_, hs.1.info, hs.1.multi⟩ hm
  | range c _ hci _ hr =>
    have := hs.1.info
    rw [hci] at this; cases this
    have := hs.1.pos
    have := hs.1.le
    simp only at hr
    omega
  | dup k n j p pipe ptr _ hk' hl hpp hj =>
    obtain ⟨rfl, _, rfl⟩ := segK_inj hk' hk
    rw [(noj p pipe hl hpp).1] at hj; cases hj
  | join k n j p pipe timers _ hk' hl hpp hj hlen hcase =>
    obtain ⟨rfl, _, rfl⟩ := segK_inj hk' hk
    obtain ⟨_, i, t, g1, g2, g3, g4⟩ := noj p pipe hl hpp
    rcases hcase with ⟨e, _⟩ | ⟨i', t', _, e1, e2, e3, _⟩
    · rw [g4] at e; cases e
    · rw [g1] at e1; cases e1
      rw [g2] at e2; cases e2
      rw [g3] at e3; cases e3
  | last k n j p pipe timers _ hk' hl hpp hj hlen hcase =>
    obtain ⟨rfl, _, rfl⟩ := segK_inj hk' hk
    obtain ⟨_, i, t, g1, g2, g3, g4⟩ := noj p pipe hl hpp
    rcases hcase with ⟨e, _⟩ | ⟨i', t', _, e1, e2, e3, _⟩
    · rw [g4] at e; cases e
    · rw [g1] at e1; cases e1
      rw [g2] at e2; cases e2
      rw [g3] at e3; cases e3
  | fresh k n j _ hk' _ =>
    obtain ⟨rfl, rfl, rfl⟩ := segK_inj hk' hk
    obtain ⟨s2, p', rfl, q1, q2, q3⟩ := fin (seq - 1) rfl
    exact ⟨_, p', h1, q1, q2, q3⟩

/-- Beside C51: a timer fires, is overtaken by a segment, which starts a new reassembly, and calls its handler. -/
example : ∃ s os, run (New true true) [.collect (exSeg 7 3 2), .fire 0, .collect (exSeg 7 3 1), .expire 0, .handle 0] = .ok (s, os) ∧
    os[2]? = some (.returned [] none) ∧ os[4]? = some (.handled [none, some ⟨0, exSeg 7 3 2⟩, none]) ∧
    (Pipes s).lookup (keyOf exIdent) = some 1 ∧ deref s 1 = [some ⟨1, exSeg 7 3 1⟩, none, none] := ⟨_, _, rfl, rfl, rfl, rfl, rfl⟩

/-! C52 -/

/-- C52: once a Collector is closed, and whatever had been collected before (TPDUs of any type), nothing that follows
fails with a panic; every call of `Collect` returns nothing but ErrClosed and stores nothing; no timer fires that had
not fired before; and the expiry handler is called only for timers that had, with what they had then. -/
theorem C52_closed (timeout handler : Bool) (es : List Event) (s : State) (os : List Output)
    (h : run (New timeout handler) es = .ok (s, os)) (later : List Event) :
    ∃ s' os', run (Close s) later = .ok (s', os') ∧ os'.length = later.length ∧
      (∀ (i : Nat) pdu, later[i]? = some (.collect pdu) → os'[i]? = some (.returned [] (some .closed))) ∧
      (∀ (p : Nat), deref s' p = deref s p) ∧
      (∀ key p, (Pipes s').lookup key = some p → (Pipes s).lookup key = some p) ∧
      s'.timers.length = s.timers.length ∧
      (∀ (i : Nat) (t : Timer), s.timers[i]? = some t → (t.state = .armed ∨ t.state = .stopped) → ∃ t', s'.timers[i]? = some t' ∧ t'.state = .stopped) ∧
      (∀ (i : Nat) d, os'[i]? = some (.handled d) → ∃ (timer : Nat) (t : Timer), later[i]? = some (.handle timer) ∧
        s.timers[timer]? = some t ∧ (t.state = .fired ∨ t.state = .expired) ∧ d = deref s t.pipe) := by
  have harm := run_armed es (armed_new timeout handler) h
  have hsh : s.closed = true → Shut s :=
    run_shut es (armed_new timeout handler) (by intro h; cases h) h
  obtain ⟨s', os', h1, h2, h3, ⟨h4, h5⟩, h6, h7, h8, h9, h10⟩ := shut_run later (shut_close harm hsh)
  have heap : (Close s).heap = s.heap := by unfold Close; split <;> rfl
  have pipes : (Close s).pipes = s.pipes := by unfold Close; split <;> rfl
  have der : ∀ p, deref (Close s) p = deref s p := by intro p; unfold deref; rw [heap]
  have len : (Close s).timers.length = s.timers.length := by
    unfold Close
    split
    · rfl
    · exact stopAll_length _ _ _
  -- timers before and after closing
  have tim : ∀ i : Nat, (Close s).timers[i]? = (s.timers[i]?).map (fun t => if t.state = .armed then { t with state := .stopped } else t) := by
    intro i
    rcases Bool.eq_false_or_eq_true s.closed with hc | hc
    · have : Close s = s := by unfold Close; rw [if_pos hc]
      rw [this]
      cases ht : s.timers[i]? with
      | none => rfl
      | some t =>
        simp only [Option.map_some]
        rw [if_neg ((hsh hc).quiet i t ht)]
    · exact close_armed harm hc i
  refine ⟨s', os', h1, h3, h8, ?_, ?_, h5.trans len, ?_, ?_⟩
  · intro p
    rw [← der p]
    unfold deref
    rw [h4]
  · intro key p hp
    have := h6 key p hp
    rw [pipes] at this
    exact this
  · intro i t ht hs
    have hlt : i < s'.timers.length := by rw [h5, len]; exact get_lt ht
    refine ⟨s'.timers[i], List.getElem?_eq_getElem hlt, ?_⟩
    obtain ⟨t0, g1, g2⟩ := h7 i _ (List.getElem?_eq_getElem hlt)
    rw [tim, ht] at g1
    have g1 := Option.some.inj g1
    simp only at g1
    have hst : t0.state = .stopped := by
      rw [← g1]
      rcases hs with hs | hs
      · rw [if_pos hs]
      · rw [if_neg (by rw [hs]; simp)]; exact hs
    rcases g2 with g2 | g2 | g2
    · rw [g2]; exact hst
    · rw [hst] at g2; cases g2
    · rw [hst] at g2; cases g2
  · intro i d hd
    obtain ⟨ti, t, g1, g2, g3, g4⟩ := h10 i d hd
    rw [tim] at g2
    cases ht : s.timers[ti]? with
    | none => rw [ht] at g2; cases g2
    | some t0 =>
      rw [ht] at g2
      have g2 := Option.some.inj g2
      simp only at g2
      by_cases ha : t0.state = .armed
      · rw [if_pos ha] at g2
        subst g2
        simp at g3
      · rw [if_neg ha] at g2
        subst g2
        refine ⟨ti, t0, g1, ht, g3, ?_⟩
        rw [g4, der]

/-- C52: a call of `Collect` on a closed Collector leaves everything as it is (only the number of calls, which is not
part of the code, is counted). -/
theorem C52_unchanged (s : State) (hc : s.closed = true) (pdu : TPDU) :
    Collect s pdu = .ok ({ s with calls := s.calls + 1 }, .returned [] (some .closed)) := by
  unfold Collect
  simp only
  rw [if_pos hc]

/-- C52: closing twice is closing once. -/
theorem C52_idempotent (s : State) : Close (Close s) = Close s := by
  have : (Close s).closed = true := by
    unfold Close
    split
    · assumption
    · rfl
  generalize Close s = s' at this
  unfold Close
  rw [if_pos this]

/-- C52, beside it: a Collector of arbitrary TPDUs; one timer is counting down and one has fired when it is closed. -/
example : ∃ s os s' os', run (New true true) [.collect (exSeg 7 3 2), .collect (exSeg 8 3 2), .collect { exSeg 9 2 1 with FirstOctet := 0x42 }, .fire 0] = .ok (s, os) ∧
    s.timers.map (·.state) = [.fired, .armed, .armed] ∧
    run (Close s) [.fire 1, .collect (exSeg 8 3 1), .expire 0, .handle 0, .expire 1, .handle 1] = .ok (s', os') ∧
    os' = [.silent, .returned [] (some .closed), .silent, .handled [none, some ⟨0, exSeg 7 3 2⟩, none], .silent, .silent] :=
  ⟨_, _, _, _, rfl, rfl, rfl, rfl⟩

/-! C54 -/

/-- C54, partial: no history of supported TPDUs panics or fails otherwise.  Missing: TPDUs of other types that say they
are one of several segments, for which the property is false, see below. -/
theorem C54_supported_partial (timeout handler : Bool) (es : List Event) (hes : ∀ e ∈ es, FineEvent e) :
    ∃ s os, run (New timeout handler) es = .ok (s, os) ∧ os.length = es.length := by
  obtain ⟨s, os, h1, _, h2, _⟩ := run_ok es (inv_new timeout handler) hes
  exact ⟨s, os, h1, h2⟩

/-- C54, exactly: after any history of arbitrary TPDUs, `Collect` panics if and only if the Collector is open, the
TPDU is of a type other than SMS-SUBMIT and SMS-DELIVER and one of several segments, and its number exceeds the number
of segments of the reassembly that is pending for all those TPDUs, whatever they are; else it returns normally. -/
theorem C54_exact (timeout handler : Bool) (es : List Event) (s : State) (os : List Output)
    (h : run (New timeout handler) es = .ok (s, os)) (pdu : TPDU) :
    ((∃ f, Collect s pdu = .error f) ↔
      (s.closed = false ∧ ¬ Supported pdu ∧ ∃ n seq ref, Segment pdu n seq ref ∧
        ∃ p, (Pipes s).lookup [] = some p ∧ (deref s p).length < seq)) ∧
    ∀ f, Collect s pdu = .error f → f = .panic .index := by
  have hs := run_sized es (sized_new timeout handler) h
  rcases collect_sized hs pdu with ⟨h1, h2⟩ | ⟨h1, s', o, h2, _⟩
  · rw [h2]
    exact ⟨⟨fun _ => h1, fun _ => ⟨_, rfl⟩⟩, fun f hf => by cases hf; rfl⟩
  · rw [h2]
    refine ⟨⟨?_, fun h => absurd h h1⟩, ?_⟩
    · rintro ⟨f, hf⟩; cases hf
    · intro f hf; cases hf

/-- C54 is false: an SMS-SUBMIT-REPORT says it is one of two segments, the next one that it is the third of three. -/
theorem C54_counterexample : run (New false false)
    [.collect { exSeg 1 2 1 with FirstOctet := 0x41 }, .collect { exSeg 2 3 3 with FirstOctet := 0x41 }] =
      .error (.panic .index) := by rfl

end Verif.Props
