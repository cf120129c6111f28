import Verif.Props.Collector
import Verif.Proofs.Owner

/-! C115: the slice `Collect` returns, and the one the expiry handler is given, belong to whoever gets them. -/

namespace Verif.Props
open Verif.Model Verif.Model.Collector Verif.Spec Verif.Proofs Verif.Proofs.Coll

/-- Whoever gets the slice `p` in the state `s` can do with it as they like: the Collector never writes to it, and
whatever they write to it, whenever, every event has the same outcome as if they had not, and the Collector shows the
same reassemblies in progress. -/
def Yours (s : State) (p : Nat) : Prop :=
  p < s.heap.length ∧
  ∀ (l : Writing) (s' : State) (os : List Output), run s l.events = .ok (s', os) →
    deref s' p = deref s p ∧
    ∃ s'', runWriting p s l = .ok (s'', os) ∧ Pipes s'' = Pipes s' ∧
      deref s'' p = l.writes.getLast?.getD (deref s p) ∧ ∀ q, q ≠ p → deref s'' q = deref s' q

theorem gone_yours {s : State} {p : Nat} (hg : Gone p s) : Yours s p := by
  refine ⟨hg.lt, fun l s' os h => ?_⟩
  obtain ⟨hg', he⟩ := gone_run l.events hg h
  have hr := overwrite_run l (deref s p) hg h
  rw [overwrite_self hg.lt] at hr
  refine ⟨by unfold deref; rw [he], _, hr, rfl, ?_, fun q hq => ?_⟩
  · generalize l.writes.getLast?.getD (deref s p) = d
    unfold deref
    have := List.getElem?_eq_getElem hg'.lt
    show ((s'.heap.modify p _)[p]?.map _).getD [] = d
    rw [List.getElem?_modify, this]
    simp
  · unfold deref; rw [overwrite_get s' _ hq]

/-- C115: the slice of two or more TPDUs `Collect` returns is the caller's. -/
theorem C115_returned (timeout handler : Bool) (es : List Event) (hes : ∀ e ∈ es, FineEvent e) (s s' : State) (os : List Output)
    (h : run (New timeout handler) es = .ok (s, os)) (pdu : TPDU) (hf : Fine pdu) (d : List (Option Ptr)) (err : Option Err)
    (hc : Collect s pdu = .ok (s', .returned d err)) (hd : 2 ≤ d.length) : ∃ p, deref s' p = d ∧ Yours s' p := by
  have hi := (hist_run hes h).inv
  obtain ⟨s1, o1, g1, hi', _⟩ := step_ok hi (e := .collect pdu) hf
  replace g1 : Collect s pdu = .ok (s1, o1) := g1
  rw [hc] at g1; cases g1
  obtain ⟨s1, o1, g1, ho⟩ := collect_outcome s hi pdu hf
  rw [hc] at g1; cases g1
  cases ho with
  | closed => simp at hd
  | single => simp at hd
  | range => simp at hd
  | dup => simp at hd
  | join => simp at hd
  | fresh => simp at hd
  | last k n j p pipe timers h1 h2 h3 h4 h5 h6 h7 h8 =>
    have hp : (s.heap.set p (fill pipe j ⟨s.calls, pdu⟩))[p]? = some (fill pipe j ⟨s.calls, pdu⟩) :=
      get_set.2 (.inl ⟨rfl, get_lt h4, rfl⟩)
    have hfull : ¬ (fill pipe j ⟨s.calls, pdu⟩).frags < (fill pipe j ⟨s.calls, pdu⟩).segments.length := by
      simp only [fill, List.length_set]; omega
    refine ⟨p, deref_of hp, gone_yours ⟨get_lt hp, fun k' hk' => ?_, fun i t ht hpt => ?_⟩⟩
    · obtain ⟨pipe', a1, _, a2, _⟩ := hi'.cur k' p hk'
      rw [hp] at a1; cases a1
      exact hfull a2
    · obtain ⟨pipe', a1, _, a2, _⟩ := hi'.tim i t ht
      rw [hpt, hp] at a1; cases a1
      by_cases hs : t.state = .stopped
      · exact .inl hs
      · exact absurd (a2 hs).2 hfull

/-- C115: the slice the expiry handler is given is the handler's. -/
theorem C115_handled (timeout handler : Bool) (es : List Event) (hes : ∀ e ∈ es, FineEvent e) (s s' : State) (os : List Output)
    (h : run (New timeout handler) es = .ok (s, os)) (i : Nat) (d : List (Option Ptr))
    (hc : step s (.handle i) = .ok (s', .handled d)) : ∃ p, deref s' p = d ∧ Yours s' p := by
  have hi := (hist_run hes h).inv
  obtain ⟨s1, o1, g1, hi', _⟩ := step_ok hi (e := .handle i) trivial
  rw [hc] at g1; cases g1
  replace hc : handle s i = (s', .handled d) := Except.ok.inj hc
  unfold handle at hc
  split at hc
  · rename_i t ht
    split at hc
    · rename_i hs
      split at hc
      · cases hc
        have ht' := get_set.2 (.inl ⟨rfl, get_lt ht, rfl⟩ : (i = i ∧ i < s.timers.length ∧ { t with state := TimerState.done } = { t with state := .done }) ∨ _)
        obtain ⟨pipe, a1, _, a2, _, a3⟩ := hi'.tim i _ ht'
        refine ⟨t.pipe, rfl, gone_yours ⟨get_lt a1, a3 (.inr rfl), fun j u hu hpu => ?_⟩⟩
        by_cases hj : u.state = .stopped
        · exact .inl hj
        · obtain ⟨pipe', b1, _, b2, _⟩ := hi'.tim j u hu
          rw [hpu] at b1
          simp only at a1
          rw [a1] at b1; cases b1
          have e1 := (b2 hj).1
          rw [(a2 (by simp)).1] at e1
          cases e1
          simp only at hu ht'
          rw [ht'] at hu; cases hu
          exact .inr rfl
      · cases hc
    · cases hc
  · cases hc

/-- C115: from when a timer fires on, before its callback has even run, nothing is written to the slice it will give the
handler.  So nothing happens to it while the handler, which does not hold the lock, reads it. -/
theorem C115_fired (timeout handler : Bool) (es later : List Event) (hes : ∀ e ∈ es, FineEvent e) (s s' : State) (os os' : List Output)
    (h : run (New timeout handler) es = .ok (s, os)) (h' : run s later = .ok (s', os')) (i : Nat) (t : Timer)
    (ht : s.timers[i]? = some t) (hs : t.state = .fired ∨ t.state = .expired ∨ t.state = .done) :
    deref s' t.pipe = deref s t.pipe := by
  have hi := (hist_run hes h).inv
  have n1 : t.state ≠ .armed := by rcases hs with h | h | h <;> rw [h] <;> decide
  have n2 : t.state ≠ .stopped := by rcases hs with h | h | h <;> rw [h] <;> decide
  obtain ⟨pipe, a1, _, a2, _⟩ := hi.tim i t ht
  obtain ⟨_, he⟩ := ran_run later ⟨⟨pipe, a1, (a2 n2).1⟩, t, ht, n1, n2, rfl⟩ h'
  unfold deref; rw [he]

/-- C115: what the handler is given is what was pending when the timer fired. -/
theorem C115_given (timeout handler : Bool) (es later : List Event) (hes : ∀ e ∈ es, FineEvent e) (s s' s'' : State)
    (os os' : List Output) (h : run (New timeout handler) es = .ok (s, os)) (h' : run s later = .ok (s', os')) (i : Nat) (t : Timer)
    (ht : s.timers[i]? = some t) (hs : t.state = .fired ∨ t.state = .expired) (d : List (Option Ptr))
    (hd : step s' (.handle i) = .ok (s'', .handled d)) :
    d = deref s t.pipe := by
  rw [← C115_fired timeout handler es later hes s s' os os' h h' i t ht (hs.imp id .inl)]
  have hi := (hist_run hes h).inv
  have n1 : t.state ≠ .armed := by rcases hs with h | h <;> rw [h] <;> decide
  have n2 : t.state ≠ .stopped := by rcases hs with h | h <;> rw [h] <;> decide
  obtain ⟨pipe, a1, _, a2, _⟩ := hi.tim i t ht
  obtain ⟨⟨_, t1, c1, _, _, c2⟩, _⟩ := ran_run later ⟨⟨pipe, a1, (a2 n2).1⟩, t, ht, n1, n2, rfl⟩ h'
  replace hd : handle s' i = (s'', .handled d) := Except.ok.inj hd
  unfold handle at hd
  split at hd
  · rename_i t' ht'
    split at hd
    · split at hd
      · cases hd
        rw [c1] at ht'; cases ht'
        rw [c2]
      · cases hd
    · cases hd
  · cases hd

/-- C115 does not extend to the slices in the map `Pipes` returns: whoever empties a slot of one makes `Collect` return,
as a complete message, one that has a nil segment. -/
theorem C115_pipes_false : ∃ (s s1 s2 : State) (os : List Output) (p : Nat),
    run (New false false) [.collect (exSeg 7 2 1)] = .ok (s, os) ∧ (Pipes s).map Prod.snd = [p] ∧
    Collect s (exSeg 7 2 1) = .ok (s1, .returned [] (some .duplicateSegment)) ∧
    Collect (overwrite s p [none, none]) (exSeg 7 2 1) = .ok (s2, .returned [some ⟨1, exSeg 7 2 1⟩, none] none) :=
  ⟨_, _, _, _, 0, rfl, rfl, rfl, rfl⟩

/-- Beside C115: a returned message; a message whose timer fires, of which another segment comes before the callback
runs. -/
example : ∃ s s' s'' os os', run (New true true) [.collect (exSeg 7 2 1), .collect (exSeg 8 3 1)] = .ok (s, os) ∧
    Collect s (exSeg 7 2 2) = .ok (s', .returned [some ⟨0, exSeg 7 2 1⟩, some ⟨2, exSeg 7 2 2⟩] none) ∧
    run s' [.fire 1, .collect (exSeg 8 3 2), .expire 1, .collect (exSeg 8 3 3), .handle 1] = .ok (s'', os') ∧
    os'[4]? = some (.handled [some ⟨1, exSeg 8 3 1⟩, none, none]) ∧
    deref s'' 2 = [none, some ⟨3, exSeg 8 3 2⟩, some ⟨4, exSeg 8 3 3⟩] :=
  ⟨_, _, _, _, _, rfl, rfl, rfl, rfl, rfl⟩

/-- Beside C115: the holder of a returned message empties its slots while another message is in progress. -/
example : ∃ s s' s'' os os', run (New true true) [.collect (exSeg 7 2 1), .collect (exSeg 8 2 1)] = .ok (s, os) ∧
    Collect s (exSeg 7 2 2) = .ok (s', .returned [some ⟨0, exSeg 7 2 1⟩, some ⟨2, exSeg 7 2 2⟩] none) ∧
    runWriting 0 s' [.inr [none, none], .inl (.collect (exSeg 7 2 1)), .inr [], .inl (.collect (exSeg 8 2 2))] = .ok (s'', os') ∧
    os' = [.returned [] none, .returned [some ⟨1, exSeg 8 2 1⟩, some ⟨4, exSeg 8 2 2⟩] none] ∧ deref s'' 0 = [] :=
  ⟨_, _, _, _, _, rfl, rfl, rfl, rfl, rfl⟩

end Verif.Props
