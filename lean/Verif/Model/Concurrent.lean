import Verif.Model.Atomic
import Verif.Model.Sms

/-!
Calls of `Encode` on one `Encoder` by several goroutines at the same time, encode.go:87-115.

`Encode` has a value receiver, so the only memory its calls share and change is in the two counters.  (And the unused
capacity of the slice `eopts`, see `Model/Alias.lean`: what that does is to make a call see other charset options than
it was given; here a call may have any options.  The slice `sopts` is always nil.)
-/

namespace Verif.Model.Concurrent
open Atomic Sms

/-- The values returned to goroutine `i` by its calls of `Count`, in the order of the calls. -/
def returnsTo (i : Nat) : List Event → List Int := List.filterMap fun
  | .ret j .count v => if j = i then some v else none
  | _ => none

/-- The counter as a goroutine sees it to which these values are returned.  (After that it is not used:
`Concurrently` counts the calls.) -/
def seen (vs : List Int) : Counter := { vals := fun k => vs.getD k 0, pos := 0 }

/-- A call of `Encode` with this result returned the TPDUs `pdus` (none, if it failed) and called the counter `MsgCount`
`a` times and `ConcatRef` `b` times.  A call that fails does so before the first `Count()`, tpdu.go:189-233. -/
def Did (m : M EncResult) (pdus : List TPDU) (a b : Nat) : Prop := match m with
  | .ok r => pdus = r.pdus ∧ r.MsgCount.pos = a ∧ r.ConcatRef.pos = b
  | .error _ => pdus = [] ∧ a = 0 ∧ b = 0

instance (m : M EncResult) (pdus : List TPDU) (a b : Nat) : Decidable (Did m pdus a b) := by
  unfold Did; split <;> infer_instance

/-- What happened in a complete execution of the calls `calls` on the encoder `e`, each by a goroutine of its own: `hm` is
the history of the counter `MsgCount` and `hc` that of `ConcatRef`, and the call numbered `i` returned the TPDUs
`results[i]`.  Every call did what encode.go:87-115 does when the counters return these values,
and called them as often as that does.  An `int` has `w` bits. -/
structure Concurrently (w : Nat) (e : Encoder) (calls : List (Bytes × List EncoderOption)) (hm hc : List Event)
    (results : List (List TPDU)) : Prop where
  msgCount : ∃ s, Exec w calls.length hm s ∧ ∀ t ∈ s.threads, t = .idle
  concatRef : ∃ s, Exec w calls.length hc s ∧ ∀ t ∈ s.threads, t = .idle
  length : results.length = calls.length
  call : ∀ (i : Nat) (msg : Bytes) (options : List EncoderOption) (pdus : List TPDU),
    calls[i]? = some (msg, options) → results[i]? = some pdus →
    Did ({ e with MsgCount := seen (returnsTo i hm), ConcatRef := seen (returnsTo i hc) }.Encode msg options) pdus
      (returnsTo i hm).length (returnsTo i hc).length

end Verif.Model.Concurrent
