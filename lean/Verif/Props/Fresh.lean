import Verif.Spec.Account
import Verif.Proofs.Fresh

/-! C122: a Collector that holds nothing is as good as new. -/

namespace Verif.Props
open Verif.Model Verif.Model.Collector Verif.Spec Verif.Proofs Verif.Proofs.Fresh

private theorem calls_collected : ∀ es : List Event, (es.map callsOf).sum = (collected es).length := by
  intro es
  induction es with
  | nil => rfl
  | cons e es ih =>
    rw [List.map_cons, List.sum_cons, ih]
    unfold collected
    cases e <;> simp [callsOf] <;> omega

private theorem calls_old (n : Nat) : ∀ es : List Event, ((es.filter (isOld n)).map callsOf).sum = 0 := by
  intro es
  induction es with
  | nil => rfl
  | cons e es ih =>
    cases he : isOld n e with
    | false => rw [List.filter_cons_of_neg (by simp [he])]; exact ih
    | true =>
      rw [List.filter_cons_of_pos he, List.map_cons, List.sum_cons, ih]
      cases e <;> first | rfl | cases he

/-- C122: whatever a Collector has been through, if it holds nothing and is not closed, it goes on as a new one: each call of
`Collect` returns what it would return there, with TPDUs of the same calls, counted from now on, timers made from now on do the
same, and `Pipes` shows the same.  What is left of the timers made before goes on as if nothing had followed. -/
theorem C122_fresh (timeout handler : Bool) (before : List Event) (s : State) (os0 : List Output)
    (h0 : run (New timeout handler) before = .ok (s, os0)) (hc : Event.close ∉ before) (hp : Pipes s = []) (es : List Event) :
    let n := s.timers.length
    let k := (collected before).length
    match run s es with
    | .ok (s', os) => ∃ a os2 s1, run (New timeout handler) (newEvents n es) = .ok (a, os2) ∧
        outputsOf false n es os = os2.map (laterOutput k) ∧
        (Pipes s').map (fun p => (p.1, deref s' p.2)) = (Pipes a).map (fun p => (p.1, (deref a p.2).map (·.map (laterPtr k)))) ∧
        run s (es.filter (isOld n)) = .ok (s1, outputsOf true n es os)
    | .error f => run (New timeout handler) (newEvents n es) = .error f := by
  intro n k
  obtain ⟨hk, hcl, _⟩ := run_keeps before (New timeout handler) (s, os0) h0
  have hcalls : s.calls = k := by
    have := hk.calls
    rw [calls_collected] at this
    simpa [New] using this
  have hidle : Idle s := ⟨hp, hk.timers (fun t ht => by cases ht)⟩
  have hon := onto_new (s := s) hp (hcl hc)
  rw [hk.timeout, hk.handler] at hon
  have := run_split es s (New timeout handler) hidle hk.handler.symm
  replace hon : onto s (New timeout handler) = s := hon
  rw [hon, hcalls] at this
  cases hr : run s es with
  | error f => rw [hr] at this; exact this
  | ok q =>
    rw [hr] at this
    obtain ⟨s1, a, os1, os2, g1, g2, g3, g4, g5⟩ := this
    refine ⟨a, os2, s1, g2, g5, ?_, by rw [g4]; exact g1⟩
    have hs1 : s1.calls = k := by
      have := (run_keeps _ _ _ g1).1.calls
      rw [calls_old] at this
      rw [← hcalls]; exact this
    rw [g3]
    show (a.pipes.map (entryOn s1)).map _ = a.pipes.map _
    rw [List.map_map]
    apply List.map_congr_left
    intro p _
    show (p.1, deref (onto s1 a) (p.2 + s1.heap.length)) = _
    rw [deref_on, hs1]

/-- C122: in particular at a time when it holds nothing, a Collector returns for the calls to come just what
a new one returns for them. -/
theorem C122_calls (timeout handler : Bool) (before : List Event) (s : State) (os0 : List Output)
    (h0 : run (New timeout handler) before = .ok (s, os0)) (hc : Event.close ∉ before) (hp : Pipes s = []) (pdus : List TPDU) :
    (run s (pdus.map .collect)).map (·.2) =
      (run (New timeout handler) (pdus.map .collect)).map (fun r => r.2.map (laterOutput (collected before).length)) := by
  have h := C122_fresh timeout handler before s os0 h0 hc hp (pdus.map .collect)
  have hn : newEvents s.timers.length (pdus.map .collect) = pdus.map .collect := by
    unfold newEvents
    clear h
    induction pdus with
    | nil => rfl
    | cons p ps ih => rw [List.map_cons, List.filter_cons_of_pos rfl, List.map_cons, ih]; rfl
  simp only [hn] at h
  cases hr : run s (pdus.map .collect) with
  | error f => rw [hr] at h; rw [h]; rfl
  | ok q =>
    rw [hr] at h
    obtain ⟨a, os2, s1, g1, g2, _⟩ := h
    have hl := (run_keeps _ _ _ hr).2.2
    have ho : ∀ (ps : List TPDU) (os : List Output), os.length = ps.length →
        outputsOf false s.timers.length (ps.map .collect) os = os := by
      intro ps
      induction ps with
      | nil => intro os h; rw [List.length_eq_zero_iff.1 h]; rfl
      | cons p ps ih =>
        intro os h
        cases os with
        | nil => cases h
        | cons o os =>
          have := ih os (by simpa using h)
          unfold outputsOf at this ⊢
          rw [List.map_cons, List.zip_cons_cons, List.filter_cons_of_pos rfl, List.map_cons, this]
    rw [ho pdus q.2 (by simpa using hl)] at g2
    rw [g1]
    show Except.ok q.2 = Except.ok _
    rw [g2]

/-- Beside C122: after a message of two parts, and the first part of one that was given up, a message with the reference of the
one that was given up; a callback for that one still runs between its parts. -/
example :
    let a (r n : UInt8) : TPDU := { FirstOctet := 0x40, DCS := 8, UDH := [⟨0, [r, 2, n]⟩], UD := [0, 65] }
    let before := [Event.collect (a 1 1), .collect (a 1 2), .collect (a 2 1), .fire 1, .expire 1]
    let es := [Event.collect (a 2 1), .handle 1, .collect (a 2 2)]
    let ids (o : Output) := match o with | .returned d _ => d.map (·.map Ptr.id) | .handled d => none :: d.map (·.map Ptr.id) | .silent => []
    Event.close ∉ before ∧
    ((run (New true true) before).map fun r => (Pipes r.1, r.1.timers.length)) = .ok ([], 2) ∧
    ((run (New true true) (before ++ es)).map fun r => (r.2.drop 5).map ids) = .ok [[], [none, some 2, none], [some 3, some 4]] ∧
    ((run (New true true) (newEvents 2 es)).map fun r => r.2.map ids) = .ok [[], [some 0, some 1]] := by
  refine ⟨by simp, ?_⟩
  decide +kernel

end Verif.Props
