import Verif.Proofs.Idle

/-! C121: what a timeout, and a handler for it, change of a Collector. -/

namespace Verif.Props
open Verif.Model Verif.Model.Collector Verif.Spec Verif.Proofs.Idle

/-- C121: as long as no timer runs out, a Collector with a timeout, and with or without a handler for it, is not told apart
from one without: each call returns the same, the handler is not called, and `Pipes` shows the same. -/
theorem C121_idle (handler handler' : Bool) (es : List Event) (hn : ∀ e ∈ es, ∀ i, e ≠ .fire i) :
    match run (New true handler) es, run (New false handler') es with
    | .ok (s, os), .ok (s', os') => os' = os ∧ (∀ d, Output.handled d ∉ os) ∧
        (Pipes s).map (fun p => (p.1, deref s p.2)) = (Pipes s').map (fun p => (p.1, deref s' p.2))
    | .error f, .error f' => f = f'
    | _, _ => False := by
  have hi : Ticking (New true handler) := ⟨rfl, fun t ht => (by cases ht), fun _ k p h => (by cases h)⟩
  have h' := run_strip handler' es (New true handler) hi hn
  have h0 := run_strip false es (New true handler) hi hn
  have hd := run_deaf es (New false false)
  replace h' : run (New false handler') es = _ := h'
  replace h0 : run (New false false) es = _ := h0
  replace hd : run (New false false) es = _ := hd
  rw [h']
  rw [h0] at hd
  cases h : run (New true handler) es with
  | error f => rfl
  | ok r =>
    rw [h] at hd
    refine ⟨rfl, fun d hm => ?_, ?_⟩
    · have hq : r.2 = r.2.map unheard := (Prod.mk.inj (Except.ok.inj hd)).2
      rw [hq] at hm
      obtain ⟨o, _, ho⟩ := List.mem_map.1 hm
      cases o <;> cases ho
    · show r.1.pipes.map _ = r.1.pipes.map _
      apply List.map_congr_left
      intro p _
      show (p.1, deref r.1 p.2) = (p.1, deref (strip handler' r.1) p.2)
      unfold deref
      show _ = (p.1, (((r.1.heap.map bare)[p.2]?).map (·.segments)).getD [])
      rw [List.getElem?_map]
      cases r.1.heap[p.2]? <;> rfl

/-- C121: whatever happens, timers that run out included, a handler changes only that it is called: each call returns the
same without it, and `Pipes` shows the same. -/
theorem C121_handler (timeout : Bool) (es : List Event) :
    match run (New timeout true) es, run (New timeout false) es with
    | .ok (s, os), .ok (s', os') => os' = os.map (fun o => match o with | .handled _ => .silent | o => o) ∧ Pipes s' = Pipes s ∧
        ∀ p, deref s' p = deref s p
    | .error f, .error f' => f = f'
    | _, _ => False := by
  have h := run_deaf es (New timeout true)
  replace h : run (New timeout false) es = _ := h
  rw [h]
  cases run (New timeout true) es with
  | error f => rfl
  | ok r => exact ⟨List.map_congr_left (fun o _ => by cases o <;> rfl), rfl, fun _ => rfl⟩

/-- Beside C121: with a part each of two messages the Collectors, with and without a timeout, hold the same and return the
first message when its second part comes; with the timer of the first part run out before, they do not. -/
example :
    let a (r n : UInt8) : TPDU := { FirstOctet := 0x40, DCS := 8, UDH := [⟨0, [r, 2, n]⟩], UD := [0, 65] }
    let es := [Event.collect (a 1 1), .collect (a 2 2), .collect (a 1 2)]
    let late := [Event.collect (a 1 1), .fire 0, .expire 0, .handle 0, .collect (a 1 2)]
    let sizes (r : M (State × List Output)) := (r.toOption.map (·.2)).map (·.map fun o => match o with | .returned d none => d.length | .handled d => 10 * d.length | _ => 5)
    (∀ e ∈ es, ∀ i, e ≠ .fire i) ∧ sizes (run (New true true) es) = some [0, 0, 2] ∧ sizes (run (New false true) es) = some [0, 0, 2] ∧
    sizes (run (New true true) late) = some [0, 5, 5, 20, 0] ∧ sizes (run (New true false) late) = some [0, 5, 5, 5, 0] ∧
    sizes (run (New false true) late) = some [0, 5, 5, 5, 2] := by
  refine ⟨fun e he i h => ?_, ?_⟩
  · subst h; simp at he
  · decide +kernel

end Verif.Props
