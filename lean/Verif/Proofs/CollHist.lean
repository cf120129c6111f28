import Verif.Proofs.CollRun
import Verif.Spec.Account

/-! What a history of a Collector has returned and handed to the expiry handler. -/

namespace Verif.Proofs.Coll
open Verif.Model Verif.Model.Collector Verif.Spec Verif.Proofs

/-- The call put its TPDU in slot `j0` of pipe `p0`. -/
structure Added (s s' : State) (pdu : TPDU) (p0 j0 : Nat) : Prop where
  here : ∃ pipe, s'.heap[p0]? = some pipe ∧ pipe.segments[j0]? = some (some ⟨s.calls, pdu⟩)
  back : ∀ (p : Nat) (pipe : Pipe) (j : Nat) (ptr : Ptr), s'.heap[p]? = some pipe → pipe.segments[j]? = some (some ptr) →
    (∃ old, s.heap[p]? = some old ∧ old.segments[j]? = some (some ptr)) ∨ (p = p0 ∧ j = j0 ∧ ptr = ⟨s.calls, pdu⟩)
  other : ∀ (p : Nat), p ≠ p0 → p < s.heap.length → s'.heap[p]? = s.heap[p]?
  otherBack : ∀ (p : Nat) (pipe : Pipe), p ≠ p0 → s'.heap[p]? = some pipe → s.heap[p]? = some pipe
  same : ∀ (pipe : Pipe), s.heap[p0]? = some pipe → pipe.frags < pipe.segments.length ∧
    (∀ (tid : Nat) (t : Timer), pipe.cleanup = some tid → s.timers[tid]? = some t → t.state = .armed) ∧
    ∃ pipe', s'.heap[p0]? = some pipe' ∧
      ∀ (j : Nat) (ptr : Ptr), pipe.segments[j]? = some (some ptr) → pipe'.segments[j]? = some (some ptr)
  timers : ∀ (i : Nat) (t : Timer), Fired t → (s'.timers[i]? = some t ↔ s.timers[i]? = some t)

/-- A call either changes nothing, or adds its TPDU. -/
theorem outcome_added {s s' : State} {o : Output} {pdu : TPDU} (hi : Inv s) (h : Outcome s pdu s' o) :
    (s' = { s with calls := s.calls + 1 } ∧ ((∃ e, o = .returned [] (some e)) ∨
      (o = .returned [some ⟨s.calls, pdu⟩] none ∧ ¬ MultiPart pdu))) ∨
    ∃ (p0 j0 : Nat) (pipe : Pipe), Added s s' pdu p0 j0 ∧ s'.heap[p0]? = some pipe ∧ s'.calls = s.calls + 1 ∧
      s'.handler = s.handler ∧ s'.closed = s.closed ∧
      ((o = .returned [] none ∧ pipe.frags < pipe.segments.length) ∨
       (o = .returned pipe.segments none ∧ pipe.frags = pipe.segments.length)) := by
  have tims : ∀ {pipe : Pipe} {timers : List Timer}, Stopped s pipe timers → ∀ (i : Nat) (t : Timer), Fired t →
      (timers[i]? = some t ↔ s.timers[i]? = some t) := by
    intro pipe timers hs i t hf
    rcases hs with ⟨_, _, rfl⟩ | ⟨tid, t', _, _, htid, harm, rfl⟩
    · exact Iff.rfl
    · rw [get_set]
      constructor
      · rintro (⟨rfl, _, rfl⟩ | ⟨_, h⟩)
        · unfold Fired at hf; simp at hf
        · exact h
      · intro h
        by_cases hti : tid = i
        · subst hti
          rw [htid] at h; cases h
          unfold Fired at hf; rw [harm] at hf; simp at hf
        · exact .inr ⟨hti, h⟩
  have armed : ∀ {pipe : Pipe} {timers : List Timer}, Stopped s pipe timers →
      ∀ (tid : Nat) (t : Timer), pipe.cleanup = some tid → s.timers[tid]? = some t → t.state = .armed := by
    intro pipe timers hs tid t h1 h2
    rcases hs with ⟨_, hcl, rfl⟩ | ⟨tid', t', _, hcl, htid, harm, rfl⟩
    · rw [hcl] at h1; cases h1
    · rw [hcl] at h1; cases h1
      rw [htid] at h2; cases h2
      exact harm
  have keep : ∀ {pipe : Pipe} {j : Nat} {c : Option Nat}, pipe.segments[j]? = some none → ∀ (i : Nat) (ptr : Ptr),
      pipe.segments[i]? = some (some ptr) → (fill pipe j ⟨s.calls, pdu⟩).segments[i]? = some (some ptr) := by
    intro pipe j c hj i ptr h
    refine get_set.2 (.inr ⟨?_, h⟩)
    rintro rfl
    rw [hj] at h; cases h
  cases h with
  | closed => exact .inl ⟨rfl, .inl ⟨_, rfl⟩⟩
  | single hc hm => exact .inl ⟨rfl, .inr ⟨rfl, hm⟩⟩
  | range => exact .inl ⟨rfl, .inl ⟨_, rfl⟩⟩
  | dup => exact .inl ⟨rfl, .inl ⟨_, rfl⟩⟩
  | join k n j p pipe timers hc hs hl hp hj hlen ht hn =>
    have hplt := get_lt hp
    obtain ⟨pp, a, hok, hinc, _⟩ := hi.cur k p hl
    rw [hp] at a; cases a
    refine .inr ⟨p, j, { fill pipe j ⟨s.calls, pdu⟩ with
      cleanup := if s.timeout then some timers.length else pipe.cleanup }, ?_, ?_, ?_, ?_, ?_, .inl ⟨rfl, ?_⟩⟩
    · have hheap : (store { s with calls := s.calls + 1, timers := timers } k p (fill pipe j ⟨s.calls, pdu⟩)).heap =
          s.heap.set p { fill pipe j ⟨s.calls, pdu⟩ with cleanup := if s.timeout then some timers.length else pipe.cleanup } := by
        unfold store
        rcases Bool.eq_false_or_eq_true s.timeout with ht | ht
        · simp [ht]
        · simp [ht]; rfl
      have htim : ∀ (i : Nat) (t : Timer), Fired t → ((store { s with calls := s.calls + 1, timers := timers } k p
          (fill pipe j ⟨s.calls, pdu⟩)).timers[i]? = some t ↔ s.timers[i]? = some t) := by
        intro i t hf
        rw [← tims ht i t hf]
        unfold store
        split
        · simp only
          rw [get_snoc]
          constructor
          · rintro (⟨_, rfl⟩ | h)
            · unfold Fired at hf; simp at hf
            · exact h
          · exact .inr
        · exact Iff.rfl
      constructor
      · rw [hheap]
        exact ⟨_, get_set.2 (.inl ⟨rfl, hplt, rfl⟩), get_set.2 (.inl ⟨rfl, get_lt hj, rfl⟩)⟩
      · rw [hheap]
        intro p' pipe' j' ptr h1 h2
        rcases get_set.1 h1 with ⟨rfl, _, rfl⟩ | ⟨_, h⟩
        · rcases get_set.1 h2 with ⟨rfl, _, h3⟩ | ⟨_, h3⟩
          · cases h3; exact .inr ⟨rfl, rfl, rfl⟩
          · exact .inl ⟨pipe, hp, h3⟩
        · exact .inl ⟨pipe', h, h2⟩
      · rw [hheap]
        intro p' hne _
        rw [List.getElem?_set_ne hne.symm]
      · rw [hheap]
        intro p' pipe' hne h
        rw [List.getElem?_set_ne hne.symm] at h
        exact h
      · intro pipe' h
        rw [hp] at h; cases h
        refine ⟨hinc, armed ht, ?_⟩
        rw [hheap]
        exact ⟨_, get_set.2 (.inl ⟨rfl, hplt, rfl⟩), keep (c := none) hj⟩
      · exact htim
    · unfold store
      rcases Bool.eq_false_or_eq_true s.timeout with ht | ht
      · simp [ht, hplt]
      · simp [ht, hplt]; rfl
    · unfold store; split <;> rfl
    · unfold store; split <;> rfl
    · unfold store; split <;> rfl
    · show pipe.frags + 1 < (pipe.segments.set j _).length
      rw [List.length_set, hlen]; exact hn
  | last k n j p pipe timers hc hs hl hp hj hlen ht hn =>
    have hplt := get_lt hp
    obtain ⟨pp, a, hok, hinc, _⟩ := hi.cur k p hl
    rw [hp] at a; cases a
    refine .inr ⟨p, j, fill pipe j ⟨s.calls, pdu⟩, ?_, get_set.2 (.inl ⟨rfl, hplt, rfl⟩), rfl, rfl, rfl, .inr ⟨rfl, ?_⟩⟩
    · constructor
      · exact ⟨_, get_set.2 (.inl ⟨rfl, hplt, rfl⟩), get_set.2 (.inl ⟨rfl, get_lt hj, rfl⟩)⟩
      · intro p' pipe' j' ptr h1 h2
        rcases get_set.1 h1 with ⟨rfl, _, rfl⟩ | ⟨_, h⟩
        · rcases get_set.1 h2 with ⟨rfl, _, h3⟩ | ⟨_, h3⟩
          · cases h3; exact .inr ⟨rfl, rfl, rfl⟩
          · exact .inl ⟨pipe, hp, h3⟩
        · exact .inl ⟨pipe', h, h2⟩
      · intro p' hne _
        simp only
        rw [List.getElem?_set_ne hne.symm]
      · intro p' pipe' hne h
        simp only at h
        rw [List.getElem?_set_ne hne.symm] at h
        exact h
      · intro pipe' h
        rw [hp] at h; cases h
        exact ⟨hinc, armed ht, _, get_set.2 (.inl ⟨rfl, hplt, rfl⟩), keep (c := none) hj⟩
      · exact tims ht
    · show pipe.frags + 1 = (pipe.segments.set j _).length
      rw [List.length_set, hlen]; exact hn
  | fresh k n j hc hs hl =>
    rw [store_fresh]
    have hb : j < n ∧ 2 ≤ n := by
      obtain ⟨ref, h1, _⟩ := hs
      have := h1.le; have := h1.multi
      omega
    refine .inr ⟨s.heap.length, j, _, ?_, get_snoc.2 (.inl ⟨rfl, rfl⟩), rfl, rfl, rfl, .inl ⟨rfl, ?_⟩⟩
    · constructor
      · exact ⟨_, get_snoc.2 (.inl ⟨rfl, rfl⟩), get_set.2 (.inl ⟨rfl, by simp [hb.1], rfl⟩)⟩
      · intro p' pipe' j' ptr h1 h2
        rcases get_snoc.1 h1 with ⟨rfl, rfl⟩ | h
        · rcases get_set.1 h2 with ⟨rfl, _, h3⟩ | ⟨_, h3⟩
          · cases h3; exact .inr ⟨rfl, rfl, rfl⟩
          · have := List.mem_of_getElem? h3
            simp at this
        · exact .inl ⟨pipe', h, h2⟩
      · intro p' _ hlt
        simp only
        rw [List.getElem?_append_left hlt]
      · intro p' pipe' hne h
        rcases get_snoc.1 h with ⟨rfl, _⟩ | h
        · exact absurd rfl hne
        · exact h
      · intro pipe' h
        have := get_lt h
        omega
      · intro i t hf
        simp only
        split
        · rw [get_snoc]
          constructor
          · rintro (⟨_, rfl⟩ | h)
            · unfold Fired at hf; simp at hf
            · exact h
          · exact .inr
        · exact Iff.rfl
    · simp; omega

/-! Histories. -/

theorem replies_snoc (os : List Output) (d : List (Option Ptr)) (e : Option Err) :
    replies (os ++ [.returned d e]) = replies os ++ [(d, e)] := by
  unfold replies; rw [List.filterMap_append]; rfl

theorem replies_mem {os : List Output} {d : List (Option Ptr)} {e : Option Err} (h : (d, e) ∈ replies os) :
    Output.returned d e ∈ os := by
  obtain ⟨o, h1, h2⟩ := List.mem_filterMap.1 h
  cases o with
  | silent => cases h2
  | returned d' e' => cases h2; exact h1
  | handled d' => cases h2

/-- The pointer `ptr` is in slot `j` of pipe `p`. -/
def Slot (s : State) (p j : Nat) (ptr : Ptr) : Prop :=
  ∃ pipe, s.heap[p]? = some pipe ∧ pipe.segments[j]? = some (some ptr)

structure Hist (es : List Event) (os : List Output) (s : State) : Prop where
  inv : Inv s
  len : os.length = es.length
  calls : (collected es).length = s.calls
  ncalls : (replies os).length = s.calls
  genuine : ∀ p j ptr, Slot s p j ptr → (collected es)[ptr.id]? = some ptr.pdu ∧ ∃ d, (replies os)[ptr.id]? = some (d, none)
  ret : ∀ (i : Nat) d e, os[i]? = some (.returned d e) → d ≠ [] → e = none ∧
    ((∃ c pdu, d = [some ⟨c, pdu⟩] ∧ ¬ MultiPart pdu ∧ (collected es)[c]? = some pdu ∧ (replies os)[c]? = some (d, none) ∧
        ∀ p j ptr, Slot s p j ptr → ptr.id ≠ c) ∨
     (∃ (p : Nat) (pipe : Pipe), s.heap[p]? = some pipe ∧ pipe.frags = pipe.segments.length ∧ pipe.segments = d))
  ret_uniq : ∀ (i i' : Nat) d d' e e' ptr ptr', os[i]? = some (.returned d e) → os[i']? = some (.returned d' e') →
    some ptr ∈ d → some ptr' ∈ d' → ptr.id = ptr'.id → i = i'
  full : ∀ (p : Nat) (pipe : Pipe), s.heap[p]? = some pipe → pipe.frags = pipe.segments.length →
    ∃ i : Nat, os[i]? = some (.returned pipe.segments none)
  acc : ∀ (c : Nat) d, (replies os)[c]? = some (d, none) → (∃ pdu, d = [some ⟨c, pdu⟩]) ∨ ∃ p j ptr, Slot s p j ptr ∧ ptr.id = c
  own : ∀ (c : Nat) d e, (replies os)[c]? = some (d, e) → d ≠ [] → ∃ pdu, some ⟨c, pdu⟩ ∈ d
  hand : ∀ (i : Nat) d, os[i]? = some (.handled d) → s.handler = true ∧ ∃ (ti : Nat) (t : Timer), es[i]? = some (.handle ti) ∧
    s.timers[ti]? = some t ∧ t.state = .done ∧ d = deref s t.pipe
  hand_uniq : ∀ (i i' ti : Nat) d d', es[i]? = some (.handle ti) → es[i']? = some (.handle ti) →
    os[i]? = some (.handled d) → os[i']? = some (.handled d') → i = i'
  done : ∀ (ti : Nat) (t : Timer), s.timers[ti]? = some t → t.state = .done → s.handler = true →
    ∃ i : Nat, es[i]? = some (.handle ti) ∧ os[i]? = some (.handled (deref s t.pipe))

theorem hist_new (timeout handler : Bool) : Hist [] [] (New timeout handler) where
  inv := inv_new timeout handler
  len := rfl
  calls := rfl
  ncalls := rfl
  genuine := by rintro p j ptr ⟨pipe, h, _⟩; simp [New] at h
  ret := by intro i d e h; simp at h
  ret_uniq := by intro i i' d d' e e' ptr ptr' h; simp at h
  full := by intro p pipe h; simp [New] at h
  acc := by intro c d h; simp [replies] at h
  own := by intro c d e h; simp [replies] at h
  hand := by intro i d h; simp at h
  hand_uniq := by intro i i' ti d d' h; simp at h
  done := by intro ti t h; simp [New] at h

theorem slot_full {k : Bytes} {pipe : Pipe} (h : PipeOk k pipe) (hf : pipe.frags = pipe.segments.length) (j : Nat)
    (hj : j < pipe.segments.length) : ∃ ptr, pipe.segments[j]? = some (some ptr) := by
  rw [h.frags, List.countP_eq_length] at hf
  have := hf pipe.segments[j] (List.getElem_mem hj)
  cases hx : pipe.segments[j] with
  | none => rw [hx] at this; cases this
  | some ptr => exact ⟨ptr, by rw [List.getElem?_eq_getElem hj, hx]⟩

theorem snoc_lt {α : Type} {l : List α} {x y : α} {i : Nat} (h : (l ++ [x])[i]? = some y) :
    l[i]? = some y ∨ (i = l.length ∧ y = x) := by
  rcases get_snoc.1 h with h | h
  · exact .inr h
  · exact .inl h

theorem deref_of {s : State} {p : Nat} {pipe : Pipe} (h : s.heap[p]? = some pipe) : deref s p = pipe.segments := by
  unfold deref; rw [h]; rfl

theorem mem_slot {d : List (Option Ptr)} {ptr : Ptr} (h : some ptr ∈ d) : ∃ j : Nat, d[j]? = some (some ptr) :=
  List.mem_iff_getElem?.1 h

theorem collected_snoc (es : List Event) (pdu : TPDU) : collected (es ++ [.collect pdu]) = collected es ++ [pdu] := by
  unfold collected; rw [List.filterMap_append]; rfl

theorem collected_other (es : List Event) (e : Event) (h : ∀ pdu, e ≠ .collect pdu) : collected (es ++ [e]) = collected es := by
  unfold collected; rw [List.filterMap_append]
  cases e with
  | collect pdu => exact absurd rfl (h pdu)
  | _ => simp

theorem hist_collect {es : List Event} {os : List Output} {s s' : State} {o : Output} {pdu : TPDU} (hh : Hist es os s)
    (h : Outcome s pdu s' o) : Hist (es ++ [.collect pdu]) (os ++ [o]) s' := by
  have hi := hh.inv
  have hi' := inv_collect hi h
  obtain ⟨dd, ee, ho⟩ : ∃ dd ee, o = .returned dd ee := by cases h <;> exact ⟨_, _, rfl⟩
  have hrep : replies (os ++ [o]) = replies os ++ [(dd, ee)] := by rw [ho, replies_snoc]
  have hreps : ∀ {c : Nat} {x}, (replies os)[c]? = some x → (replies (os ++ [o]))[c]? = some x := by
    intro c x h; rw [hrep]; exact get_snoc.2 (.inr h)
  have hcols : ∀ {c : Nat} {x}, (collected es)[c]? = some x → (collected (es ++ [.collect pdu]))[c]? = some x := by
    intro c x h; rw [collected_snoc]; exact get_snoc.2 (.inr h)
  have hrepnew : (replies (os ++ [o]))[s.calls]? = some (dd, ee) := by
    rw [hrep]; exact get_snoc.2 (.inl ⟨hh.ncalls.symm, rfl⟩)
  have hcolnew : (collected (es ++ [.collect pdu]))[s.calls]? = some pdu := by
    rw [collected_snoc]; exact get_snoc.2 (.inl ⟨hh.calls.symm, rfl⟩)
  have hcalls' : s'.calls = s.calls + 1 := (collect_const h).2.2.2
  have hhand' : s'.handler = s.handler := (collect_const h).2.1
  have hidlt : ∀ {i : Nat} {d e ptr}, os[i]? = some (.returned d e) → some ptr ∈ d → ptr.id < s.calls := by
    intro i d e ptr h1 h2
    obtain ⟨_, h3⟩ := hh.ret i d e h1 (by rintro rfl; cases h2)
    rcases h3 with ⟨c, pdu', rfl, _, h4, _⟩ | ⟨p, pipe, h4, h5, rfl⟩
    · have := get_lt h4
      rw [hh.calls] at this
      simp only [List.mem_singleton, Option.some.injEq] at h2
      rw [h2]; exact this
    · obtain ⟨j, hj⟩ := mem_slot h2
      exact hi.ids p pipe j ptr h4 hj
  have hnot : ∀ {i : Nat} {ti : Nat}, (es ++ [Event.collect pdu])[i]? = some (.handle ti) → es[i]? = some (.handle ti) := by
    intro i ti h
    rcases snoc_lt h with h | ⟨_, h⟩
    · exact h
    · cases h
  have hnoth : ∀ {i : Nat} {d}, (os ++ [o])[i]? = some (.handled d) → os[i]? = some (.handled d) := by
    intro i d h
    rcases snoc_lt h with h | ⟨_, h⟩
    · exact h
    · rw [ho] at h; cases h
  rcases outcome_added hi h with ⟨rfl, hcase⟩ | ⟨p0, j0, pipe0, hadd, hp0, _, _, _, hcase⟩
  · have hdd : (dd = [] ∧ ∃ e, ee = some e) ∨ (dd = [some ⟨s.calls, pdu⟩] ∧ ee = none ∧ ¬ MultiPart pdu) := by
      rcases hcase with ⟨e, h1⟩ | ⟨h1, h2⟩
      · rw [ho] at h1; cases h1; exact .inl ⟨rfl, e, rfl⟩
      · rw [ho] at h1; cases h1; exact .inr ⟨rfl, rfl, h2⟩
    exact {
      inv := hi'
      len := by simp [hh.len]
      calls := by rw [collected_snoc]; simp [hh.calls]
      ncalls := by rw [hrep]; simp [hh.ncalls]
      genuine := by
        intro p j ptr hs
        obtain ⟨h1, d, h2⟩ := hh.genuine p j ptr hs
        exact ⟨hcols h1, d, hreps h2⟩
      ret := by
        intro i d e h1 h2
        rcases snoc_lt h1 with h1 | ⟨_, h1⟩
        · obtain ⟨a, b⟩ := hh.ret i d e h1 h2
          refine ⟨a, ?_⟩
          rcases b with ⟨c, pdu', b1, b2, b3, b4, b5⟩ | b
          · exact .inl ⟨c, pdu', b1, b2, hcols b3, hreps b4, b5⟩
          · exact .inr b
        · rw [ho] at h1; cases h1
          rcases hdd with ⟨h3, _⟩ | ⟨h3, h4, h5⟩
          · exact absurd h3 h2
          · refine ⟨h4, .inl ⟨s.calls, pdu, h3, h5, hcolnew, by rw [hrepnew, h4], ?_⟩⟩
            rintro p j ptr ⟨pipe, q1, q2⟩ q3
            have := hi.ids p pipe j ptr q1 q2
            omega
      ret_uniq := by
        intro i i' d d' e e' ptr ptr' h1 h2 h3 h4 h5
        have hnew : ∀ {d e ptr}, Output.returned d e = o → some ptr ∈ d → ptr.id = s.calls := by
          intro d e ptr h1 h2
          rw [ho] at h1; cases h1
          rcases hdd with ⟨rfl, _⟩ | ⟨rfl, _⟩
          · cases h2
          · simp only [List.mem_singleton, Option.some.injEq] at h2
            rw [h2]
        rcases snoc_lt h1 with h1 | ⟨e1, h1⟩
        · rcases snoc_lt h2 with h2 | ⟨e2, h2⟩
          · exact hh.ret_uniq i i' d d' e e' ptr ptr' h1 h2 h3 h4 h5
          · have := hnew h2 h4
            have := hidlt h1 h3
            omega
        · rcases snoc_lt h2 with h2 | ⟨e2, h2⟩
          · have := hnew h1 h3
            have := hidlt h2 h4
            omega
          · omega
      full := by
        intro p pipe h1 h2
        obtain ⟨i, h3⟩ := hh.full p pipe h1 h2
        exact ⟨i, get_snoc.2 (.inr h3)⟩
      acc := by
        intro c d h1
        rw [hrep] at h1
        rcases snoc_lt h1 with h1 | ⟨g1, h2⟩
        · exact hh.acc c d h1
        · cases h2
          rcases hdd with ⟨_, e, h3⟩ | ⟨h3, _⟩
          · cases h3
          · rw [g1, hh.ncalls]; exact .inl ⟨pdu, h3⟩
      own := by
        intro c d e h1 h2
        rw [hrep] at h1
        rcases snoc_lt h1 with h1 | ⟨g1, h3⟩
        · exact hh.own c d e h1 h2
        · cases h3
          rcases hdd with ⟨h3, _⟩ | ⟨h3, _⟩
          · exact absurd h3 h2
          · rw [g1, hh.ncalls]; exact ⟨pdu, by rw [h3]; exact List.mem_singleton_self _⟩
      hand := by
        intro i d h1
        obtain ⟨a, ti, t, b1, b2, b3, b4⟩ := hh.hand i d (hnoth h1)
        exact ⟨a, ti, t, get_snoc.2 (.inr b1), b2, b3, b4⟩
      hand_uniq := by
        intro i i' ti d d' h1 h2 h3 h4
        exact hh.hand_uniq i i' ti d d' (hnot h1) (hnot h2) (hnoth h3) (hnoth h4)
      done := by
        intro ti t h1 h2 h3
        obtain ⟨i, a, b⟩ := hh.done ti t h1 h2 h3
        exact ⟨i, get_snoc.2 (.inr a), get_snoc.2 (.inr b)⟩ }
  · -- a pipe that is complete, or whose timer has fired, is not the one that changed
    have hne : ∀ {p : Nat} {pipe : Pipe}, s.heap[p]? = some pipe → pipe.frags = pipe.segments.length → p ≠ p0 := by
      rintro p pipe h1 h2 rfl
      have := (hadd.same pipe h1).1
      omega
    have hne' : ∀ {ti : Nat} {t : Timer}, s.timers[ti]? = some t → t.state = .done → t.pipe ≠ p0 ∧ t.pipe < s.heap.length := by
      intro ti t h1 h2
      obtain ⟨pp, q1, q2, q3, _⟩ := hi.tim ti t h1
      refine ⟨?_, get_lt q1⟩
      intro he
      rw [he] at q1
      have := (hadd.same pp q1).2.1 ti t (q3 (by rw [h2]; simp)).1 h1
      rw [h2] at this; cases this
    have hslot : ∀ {p j ptr}, Slot s p j ptr → Slot s' p j ptr := by
      rintro p j ptr ⟨pipe, h1, h2⟩
      by_cases hp : p = p0
      · subst hp
        obtain ⟨_, _, pipe', a, b⟩ := hadd.same pipe h1
        exact ⟨pipe', a, b j ptr h2⟩
      · exact ⟨pipe, by rw [hadd.other p hp (get_lt h1)]; exact h1, h2⟩
    have hderef : ∀ {ti : Nat} {t : Timer}, s.timers[ti]? = some t → t.state = .done → deref s' t.pipe = deref s t.pipe := by
      intro ti t h1 h2
      obtain ⟨a, b⟩ := hne' h1 h2
      unfold deref
      rw [hadd.other _ a b]
    have hdd : ee = none ∧ ((dd = [] ∧ pipe0.frags < pipe0.segments.length) ∨ (dd = pipe0.segments ∧ pipe0.frags = pipe0.segments.length)) := by
      rcases hcase with ⟨h1, h2⟩ | ⟨h1, h2⟩
      · rw [ho] at h1; cases h1; exact ⟨rfl, .inl ⟨rfl, h2⟩⟩
      · rw [ho] at h1; cases h1; exact ⟨rfl, .inr ⟨rfl, h2⟩⟩
    exact {
      inv := hi'
      len := by simp [hh.len]
      calls := by rw [collected_snoc]; simp [hh.calls, hcalls']
      ncalls := by rw [hrep]; simp [hh.ncalls, hcalls']
      genuine := by
        rintro p j ptr ⟨pipe, q1, q2⟩
        rcases hadd.back p pipe j ptr q1 q2 with ⟨old, r1, r2⟩ | ⟨_, _, rfl⟩
        · obtain ⟨h1, d, h2⟩ := hh.genuine p j ptr ⟨old, r1, r2⟩
          exact ⟨hcols h1, d, hreps h2⟩
        · exact ⟨hcolnew, dd, by rw [hrepnew, hdd.1]⟩
      ret := by
        intro i d e h1 h2
        rcases snoc_lt h1 with h1 | ⟨_, h1⟩
        · obtain ⟨a, b⟩ := hh.ret i d e h1 h2
          refine ⟨a, ?_⟩
          rcases b with ⟨c, pdu', b1, b2, b3, b4, b5⟩ | ⟨p, pipe, b1, b2, b3⟩
          · refine .inl ⟨c, pdu', b1, b2, hcols b3, hreps b4, ?_⟩
            rintro p j ptr ⟨pipe, q1, q2⟩
            rcases hadd.back p pipe j ptr q1 q2 with ⟨old, r1, r2⟩ | ⟨_, _, rfl⟩
            · exact b5 p j ptr ⟨old, r1, r2⟩
            · have := get_lt b3
              rw [hh.calls] at this
              simp only
              omega
          · exact .inr ⟨p, pipe, by rw [hadd.other p (hne b1 b2) (get_lt b1)]; exact b1, b2, b3⟩
        · rw [ho] at h1; cases h1
          rcases hdd with ⟨h4, ⟨h3, _⟩ | ⟨h3, h5⟩⟩
          · exact absurd h3 h2
          · exact ⟨h4, .inr ⟨p0, pipe0, hp0, h5, h3.symm⟩⟩
      ret_uniq := by
        -- an earlier set and the new one have no segment in common
        have key : ∀ {i : Nat} {d e d' e' ptr ptr'}, os[i]? = some (.returned d e) → o = .returned d' e' →
            some ptr ∈ d → some ptr' ∈ d' → ptr.id = ptr'.id → False := by
          intro i d e d' e' ptr ptr' h1 h2 h3 h4 h5
          rw [ho] at h2; cases h2
          rcases hdd with ⟨_, ⟨hd, _⟩ | ⟨hd, hfull⟩⟩
          · rw [hd] at h4; cases h4
          · rw [hd] at h4
            obtain ⟨j', hj'⟩ := mem_slot h4
            obtain ⟨_, h6⟩ := hh.ret i d e h1 (by rintro rfl; cases h3)
            have hlt := hidlt h1 h3
            -- the pointer in the new set is an old one
            rcases hadd.back p0 pipe0 j' ptr' hp0 hj' with ⟨old, r1, r2⟩ | ⟨_, _, r⟩
            · rcases h6 with ⟨c, pdu', rfl, _, _, _, b5⟩ | ⟨p, pipe, b1, b2, rfl⟩
              · simp only [List.mem_singleton, Option.some.injEq] at h3
                rw [h3] at h5
                exact b5 p0 j' ptr' ⟨old, r1, r2⟩ h5.symm
              · obtain ⟨j, hj⟩ := mem_slot h3
                obtain ⟨e1, _⟩ := hi.uniq p pipe j ptr p0 old j' ptr' b1 hj r1 r2 h5
                exact hne b1 b2 e1
            · rw [h5, r] at hlt
              simp only at hlt
              omega
        intro i i' d d' e e' ptr ptr' h1 h2 h3 h4 h5
        rcases snoc_lt h1 with h1 | ⟨e1, h1⟩
        · rcases snoc_lt h2 with h2 | ⟨e2, h2⟩
          · exact hh.ret_uniq i i' d d' e e' ptr ptr' h1 h2 h3 h4 h5
          · exact (key h1 h2.symm h3 h4 h5).elim
        · rcases snoc_lt h2 with h2 | ⟨e2, h2⟩
          · exact (key h2 h1.symm h4 h3 h5.symm).elim
          · omega
      full := by
        intro p pipe h1 h2
        by_cases hp : p = p0
        · subst hp
          rw [hp0] at h1; cases h1
          rcases hdd with ⟨h4, ⟨_, h5⟩ | ⟨h3, h5⟩⟩
          · omega
          · exact ⟨os.length, get_snoc.2 (.inl ⟨rfl, by rw [ho, h4, h3]⟩)⟩
        · obtain ⟨i, h3⟩ := hh.full p pipe (hadd.otherBack p pipe hp h1) h2
          exact ⟨i, get_snoc.2 (.inr h3)⟩
      acc := by
        intro c d h1
        rw [hrep] at h1
        rcases snoc_lt h1 with h1 | ⟨g1, h2⟩
        · rcases hh.acc c d h1 with h2 | ⟨p, j, ptr, h2, h3⟩
          · exact .inl h2
          · exact .inr ⟨p, j, ptr, hslot h2, h3⟩
        · obtain ⟨pipe, q1, q2⟩ := hadd.here
          exact .inr ⟨p0, j0, _, ⟨pipe, q1, q2⟩, by rw [g1, hh.ncalls]⟩
      own := by
        intro c d e h1 h2
        rw [hrep] at h1
        rcases snoc_lt h1 with h1 | ⟨g1, h3⟩
        · exact hh.own c d e h1 h2
        · cases h3
          rcases hdd with ⟨_, ⟨h3, _⟩ | ⟨h3, _⟩⟩
          · exact absurd h3 h2
          · obtain ⟨pipe, q1, q2⟩ := hadd.here
            rw [hp0] at q1; cases q1
            rw [g1, hh.ncalls]
            exact ⟨pdu, by rw [h3]; exact List.mem_of_getElem? q2⟩
      hand := by
        intro i d h1
        obtain ⟨a, ti, t, b1, b2, b3, b4⟩ := hh.hand i d (hnoth h1)
        refine ⟨hhand'.trans a, ti, t, get_snoc.2 (.inr b1), (hadd.timers ti t (.inr (.inr b3))).2 b2, b3, ?_⟩
        rw [hderef b2 b3]; exact b4
      hand_uniq := by
        intro i i' ti d d' h1 h2 h3 h4
        exact hh.hand_uniq i i' ti d d' (hnot h1) (hnot h2) (hnoth h3) (hnoth h4)
      done := by
        intro ti t h1 h2 h3
        have h1' := (hadd.timers ti t (.inr (.inr h2))).1 h1
        obtain ⟨i, a, b⟩ := hh.done ti t h1' h2 (hhand' ▸ h3)
        exact ⟨i, get_snoc.2 (.inr a), get_snoc.2 (.inr (by rw [hderef h1' h2]; exact b))⟩ }

/-- Events that leave the heap and what is done alone. -/
theorem hist_quiet {es : List Event} {os : List Output} {s s' : State} {e : Event} (hh : Hist es os s)
    (hi' : Inv s') (he : ∀ pdu, e ≠ .collect pdu) (hheap : s'.heap = s.heap) (hcalls : s'.calls = s.calls)
    (hhandler : s'.handler = s.handler)
    (hdone : ∀ (i : Nat) (t : Timer), t.state = .done → (s'.timers[i]? = some t ↔ s.timers[i]? = some t)) :
    Hist (es ++ [e]) (os ++ [.silent]) s' := by
  have hcol := collected_other es e he
  have hrep : replies (os ++ [.silent]) = replies os := by unfold replies; rw [List.filterMap_append]; simp
  have hslot : ∀ {p j ptr}, Slot s' p j ptr ↔ Slot s p j ptr := by
    intro p j ptr; unfold Slot; rw [hheap]
  have hout : ∀ {i : Nat} {o}, (os ++ [Output.silent])[i]? = some o → o ≠ .silent → os[i]? = some o := by
    intro i o h hne
    rcases snoc_lt h with h | ⟨_, h⟩
    · exact h
    · exact absurd h hne
  have hder : ∀ p, deref s' p = deref s p := by intro p; unfold deref; rw [hheap]
  have hev : ∀ {i : Nat} {d ti}, (es ++ [e])[i]? = some (.handle ti) → os[i]? = some (.handled d) → es[i]? = some (.handle ti) := by
    intro i d ti h1 h2
    rcases snoc_lt h1 with h | ⟨h, _⟩
    · exact h
    · have := get_lt h2
      have := hh.len
      omega
  exact {
    inv := hi'
    len := by simp [hh.len]
    calls := by rw [hcol, hcalls]; exact hh.calls
    ncalls := by rw [hrep, hcalls]; exact hh.ncalls
    genuine := by
      intro p j ptr h
      rw [hcol, hrep]
      exact hh.genuine p j ptr (hslot.1 h)
    ret := by
      intro i d e' h1 h2
      obtain ⟨a, b⟩ := hh.ret i d e' (hout h1 (by simp)) h2
      refine ⟨a, ?_⟩
      rw [hcol, hrep, hheap]
      rcases b with ⟨c, pdu', b1, b2, b3, b4, b5⟩ | b
      · exact .inl ⟨c, pdu', b1, b2, b3, b4, fun p j ptr h => b5 p j ptr (hslot.1 h)⟩
      · exact .inr b
    ret_uniq := by
      intro i i' d d' e e' ptr ptr' h1 h2
      exact hh.ret_uniq i i' d d' e e' ptr ptr' (hout h1 (by simp)) (hout h2 (by simp))
    full := by
      intro p pipe h1 h2
      rw [hheap] at h1
      obtain ⟨i, h3⟩ := hh.full p pipe h1 h2
      exact ⟨i, get_snoc.2 (.inr h3)⟩
    acc := by
      intro c d h
      rw [hrep] at h
      rcases hh.acc c d h with h | ⟨p, j, ptr, h1, h2⟩
      · exact .inl h
      · exact .inr ⟨p, j, ptr, hslot.2 h1, h2⟩
    own := by rw [hrep]; exact hh.own
    hand := by
      intro i d h1
      obtain ⟨a, ti, t, b1, b2, b3, b4⟩ := hh.hand i d (hout h1 (by simp))
      exact ⟨hhandler.trans a, ti, t, get_snoc.2 (.inr b1), (hdone ti t b3).2 b2, b3, by rw [hder]; exact b4⟩
    hand_uniq := by
      intro i i' ti d d' h1 h2 h3 h4
      have h3 := hout h3 (by simp)
      have h4 := hout h4 (by simp)
      exact hh.hand_uniq i i' ti d d' (hev h1 h3) (hev h2 h4) h3 h4
    done := by
      intro ti t h1 h2 h3
      obtain ⟨i, a, b⟩ := hh.done ti t ((hdone ti t h2).1 h1) h2 (hhandler ▸ h3)
      exact ⟨i, get_snoc.2 (.inr a), get_snoc.2 (.inr (by rw [hder]; exact b))⟩ }

theorem hist_handle {es : List Event} {os : List Output} {s : State} (hh : Hist es os s) (i0 : Nat) :
    Hist (es ++ [.handle i0]) (os ++ [(handle s i0).2]) (handle s i0).1 := by
  have hi := hh.inv
  have hi' := inv_handle hi i0
  -- nothing happens, or the timer `i0` gets done
  have hcase : ((handle s i0).1 = s ∧ (handle s i0).2 = .silent) ∨ ∃ t, s.timers[i0]? = some t ∧ t.state = .expired ∧
      (handle s i0).1 = { s with timers := s.timers.set i0 { t with state := .done } } ∧
      (handle s i0).2 = if s.handler then .handled (deref s t.pipe) else .silent := by
    unfold handle
    split
    · rename_i t ht
      split
      · rename_i hs
        exact .inr ⟨t, ht, hs, rfl, rfl⟩
      · exact .inl ⟨rfl, rfl⟩
    · exact .inl ⟨rfl, rfl⟩
  rcases hcase with ⟨e1, e2⟩ | ⟨t0, ht0, hs0, e1, e2⟩
  · rw [e1, e2]
    exact hist_quiet hh hi (by simp) rfl rfl rfl (fun _ _ _ => Iff.rfl)
  · have hlt := get_lt ht0
    have hdone : ∀ (i : Nat) (t : Timer), i ≠ i0 → ((handle s i0).1.timers[i]? = some t ↔ s.timers[i]? = some t) := by
      intro i t hne
      rw [e1, get_set]
      constructor
      · rintro (⟨h, _⟩ | ⟨_, h⟩)
        · exact absurd h.symm hne
        · exact h
      · intro h; exact .inr ⟨hne.symm, h⟩
    have hnd : ∀ {ti : Nat} {t : Timer}, s.timers[ti]? = some t → t.state = .done → ti ≠ i0 := by
      rintro ti t h1 h2 rfl
      rw [ht0] at h1; cases h1
      rw [hs0] at h2; cases h2
    have hcol := collected_other es (.handle i0) (by simp)
    have hrep : replies (os ++ [(handle s i0).2]) = replies os := by
      unfold replies; rw [List.filterMap_append, e2]
      split <;> simp
    have hheap : (handle s i0).1.heap = s.heap := by rw [e1]
    have hcalls : (handle s i0).1.calls = s.calls := by rw [e1]
    have hhandler : (handle s i0).1.handler = s.handler := by rw [e1]
    have hslot : ∀ {p j ptr}, Slot (handle s i0).1 p j ptr ↔ Slot s p j ptr := by
      intro p j ptr; unfold Slot; rw [hheap]
    have hout : ∀ {i : Nat} {d e}, (os ++ [(handle s i0).2])[i]? = some (.returned d e) → os[i]? = some (.returned d e) := by
      intro i d e h
      rcases snoc_lt h with h | ⟨_, h⟩
      · exact h
      · rw [e2] at h
        split at h <;> cases h
    have hder : ∀ p, deref (handle s i0).1 p = deref s p := by intro p; unfold deref; rw [hheap]
    exact {
      inv := hi'
      len := by simp [hh.len]
      calls := by rw [hcol, hcalls]; exact hh.calls
      ncalls := by rw [hrep, hcalls]; exact hh.ncalls
      genuine := by
        intro p j ptr h
        rw [hcol, hrep]
        exact hh.genuine p j ptr (hslot.1 h)
      ret := by
        intro i d e' h1 h2
        obtain ⟨a, b⟩ := hh.ret i d e' (hout h1) h2
        refine ⟨a, ?_⟩
        rw [hcol, hrep, hheap]
        rcases b with ⟨c, pdu', b1, b2, b3, b4, b5⟩ | b
        · exact .inl ⟨c, pdu', b1, b2, b3, b4, fun p j ptr h => b5 p j ptr (hslot.1 h)⟩
        · exact .inr b
      ret_uniq := by
        intro i i' d d' e e' ptr ptr' h1 h2
        exact hh.ret_uniq i i' d d' e e' ptr ptr' (hout h1) (hout h2)
      full := by
        intro p pipe h1 h2
        rw [hheap] at h1
        obtain ⟨i, h3⟩ := hh.full p pipe h1 h2
        exact ⟨i, get_snoc.2 (.inr h3)⟩
      acc := by
        intro c d h
        rw [hrep] at h
        rcases hh.acc c d h with h | ⟨p, j, ptr, h1, h2⟩
        · exact .inl h
        · exact .inr ⟨p, j, ptr, hslot.2 h1, h2⟩
      own := by rw [hrep]; exact hh.own
      hand := by
        intro i d h1
        rcases snoc_lt h1 with h1 | ⟨g1, h2⟩
        · obtain ⟨a, ti, t, b1, b2, b3, b4⟩ := hh.hand i d h1
          exact ⟨hhandler.trans a, ti, t, get_snoc.2 (.inr b1), (hdone ti t (hnd b2 b3)).2 b2, b3, by rw [hder]; exact b4⟩
        · rw [e2] at h2
          split at h2
          · rename_i hha
            cases h2
            refine ⟨hhandler.trans hha, i0, { t0 with state := .done }, get_snoc.2 (.inl ⟨by rw [g1, hh.len], rfl⟩), ?_, rfl, ?_⟩
            · rw [e1]; exact get_set.2 (.inl ⟨rfl, hlt, rfl⟩)
            · rw [hder]
          · cases h2
      hand_uniq := by
        -- an earlier call of the handler was for another timer
        have key : ∀ {i : Nat} {d}, es[i]? = some (.handle i0) → os[i]? = some (.handled d) → False := by
          intro i d h1 h2
          obtain ⟨_, ti, t, b1, b2, b3, _⟩ := hh.hand i d h2
          rw [h1] at b1; cases b1
          exact hnd b2 b3 rfl
        intro i i' ti d d' h1 h2 h3 h4
        rcases snoc_lt h1 with g1 | ⟨g1, g1'⟩
        · have h3 : os[i]? = some (.handled d) := by
            rcases snoc_lt h3 with h | ⟨h, _⟩
            · exact h
            · have := get_lt g1; have := hh.len; omega
          rcases snoc_lt h2 with g2 | ⟨g2, g2'⟩
          · have h4 : os[i']? = some (.handled d') := by
              rcases snoc_lt h4 with h | ⟨h, _⟩
              · exact h
              · have := get_lt g2; have := hh.len; omega
            exact hh.hand_uniq i i' ti d d' g1 g2 h3 h4
          · cases g2'
            exact (key g1 h3).elim
        · cases g1'
          rcases snoc_lt h2 with g2 | ⟨g2, g2'⟩
          · have h4 : os[i']? = some (.handled d') := by
              rcases snoc_lt h4 with h | ⟨h, _⟩
              · exact h
              · have := get_lt g2; have := hh.len; omega
            exact (key g2 h4).elim
          · omega
      done := by
        intro ti t h1 h2 h3
        rw [hhandler] at h3
        by_cases hti : ti = i0
        · subst hti
          have h1' := h1
          rw [e1] at h1'
          rcases get_set.1 h1' with ⟨_, _, rfl⟩ | ⟨h, _⟩
          · refine ⟨os.length, get_snoc.2 (.inl ⟨hh.len, rfl⟩), get_snoc.2 (.inl ⟨rfl, ?_⟩)⟩
            rw [e2, if_pos h3, hder]
          · exact absurd rfl h
        · obtain ⟨i, a, b⟩ := hh.done ti t ((hdone ti t hti).1 h1) h2 h3
          exact ⟨i, get_snoc.2 (.inr a), get_snoc.2 (.inr (by rw [hder]; exact b))⟩ }

theorem hist_step {es : List Event} {os : List Output} {s s' : State} {e : Event} {o : Output} (hh : Hist es os s)
    (he : FineEvent e) (h : step s e = .ok (s', o)) : Hist (es ++ [e]) (os ++ [o]) s' := by
  have hi := hh.inv
  cases e with
  | collect pdu =>
    obtain ⟨s1, o1, h1, h2⟩ := collect_outcome s hi pdu he
    have h : Collect s pdu = .ok (s', o) := h
    rw [h1] at h
    cases h
    exact hist_collect hh h2
  | fire i =>
    cases h
    refine hist_quiet hh (inv_fire hi i) (by simp) ?_ ?_ ?_ ?_
    · unfold fire; split
      · split <;> rfl
      · rfl
    · unfold fire; split
      · split <;> rfl
      · rfl
    · unfold fire; split
      · split <;> rfl
      · rfl
    · intro i' t' hd
      unfold fire; split
      · rename_i t ht
        split
        · rename_i hs
          simp only
          rw [get_set]
          constructor
          · rintro (⟨_, _, rfl⟩ | ⟨_, h⟩)
            · cases hd
            · exact h
          · intro h
            refine .inr ⟨?_, h⟩
            rintro rfl
            rw [ht] at h; cases h
            rw [hs] at hd; cases hd
        · exact Iff.rfl
      · exact Iff.rfl
  | expire i =>
    cases h
    refine hist_quiet hh (inv_expire hi i) (by simp) ?_ ?_ ?_ ?_
    · unfold expire; split
      · split <;> rfl
      · rfl
    · unfold expire; split
      · split <;> rfl
      · rfl
    · unfold expire; split
      · split <;> rfl
      · rfl
    · intro i' t' hd
      unfold expire; split
      · rename_i t ht
        split
        · rename_i hs
          simp only
          rw [get_set]
          constructor
          · rintro (⟨_, _, rfl⟩ | ⟨_, h⟩)
            · cases hd
            · exact h
          · intro h
            refine .inr ⟨?_, h⟩
            rintro rfl
            rw [ht] at h; cases h
            rw [hs] at hd; cases hd
        · exact Iff.rfl
      · exact Iff.rfl
  | handle i =>
    have : (handle s i).1 = s' ∧ (handle s i).2 = o := by
      have h : (Except.ok (handle s i) : M _) = .ok (s', o) := h
      have := Except.ok.inj h
      rw [this]; exact ⟨rfl, rfl⟩
    rw [← this.1, ← this.2]
    exact hist_handle hh i
  | close =>
    cases h
    refine hist_quiet hh (inv_close hi) (by simp) ?_ ?_ ?_ ?_
    · unfold Close; split <;> rfl
    · unfold Close; split <;> rfl
    · unfold Close; split <;> rfl
    · intro i t hd
      rcases Bool.eq_false_or_eq_true s.closed with hc | hc
      · have : Close s = s := by unfold Close; rw [if_pos hc]
        rw [this]
      · rw [close_timers hi hc]
        cases h0 : s.timers[i]? with
        | none => simp
        | some t0 =>
          simp only [Option.map_some, Option.some.injEq]
          constructor
          · rintro rfl
            by_cases ha : t0.state = .armed
            · rw [if_pos ha] at hd; cases hd
            · rw [if_neg ha]
          · rintro rfl
            rw [if_neg (by rw [hd]; simp)]

theorem hist_run_from : ∀ (es2 : List Event) {es1 : List Event} {os1 : List Output} {s s' : State} {os : List Output},
    Hist es1 os1 s → (∀ e ∈ es2, FineEvent e) → run s es2 = .ok (s', os) → Hist (es1 ++ es2) (os1 ++ os) s' := by
  intro es2
  induction es2 with
  | nil =>
    intro es1 os1 s s' os hh _ h
    cases h
    simpa using hh
  | cons e es2 ih =>
    intro es1 os1 s s' os hh hf h
    unfold run at h
    obtain ⟨⟨s1, o⟩, h1, h⟩ := bind_eq_ok.1 h
    obtain ⟨⟨s2, os2⟩, h2, h⟩ := bind_eq_ok.1 h
    cases h
    have := ih (hist_step hh (hf e List.mem_cons_self) h1) (fun e' he' => hf e' (List.mem_cons_of_mem _ he')) h2
    simpa using this

theorem hist_run {timeout handler : Bool} {es : List Event} {s : State} {os : List Output}
    (hf : ∀ e ∈ es, FineEvent e) (h : run (New timeout handler) es = .ok (s, os)) : Hist es os s := by
  have := hist_run_from es (hist_new timeout handler) hf h
  simpa using this

end Verif.Proofs.Coll
