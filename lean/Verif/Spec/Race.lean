import Verif.Model.Lazy

/-! Histories of the goroutines of `Model/Lazy.lean`. -/

namespace Verif.Spec.Race
open Verif.Model Verif.Model.Lazy

/-- The variable an event accesses, by which goroutine, and whether it is written. -/
def access : Event → Option (Nat × Var × Bool)
  | .read i v => some (i, v, false)
  | .write i v => some (i, v, true)
  | _ => none

/-- Two goroutines access the same variable and one of them writes it.  The functions do not synchronise with each
other, so when the goroutines do not do so otherwise, this is a data race (The Go Memory Model, "Definitions"). -/
def Race (h : List Event) : Prop :=
  ∃ a b i j v wi wj, a ∈ h ∧ b ∈ h ∧ access a = some (i, v, wi) ∧ access b = some (j, v, wj) ∧ i ≠ j ∧ (wi ∨ wj)

/-- The goroutine an event belongs to. -/
def thread : Event → Nat
  | .call i _ _ => i
  | .read i _ => i
  | .write i _ => i
  | .ret i _ => i

/-- The table the function gives when there is one goroutine only. -/
def table (k : Kind) (nli : Int) : Table :=
  match k with
  | .decoder => .dec (Charset.NewDecoder nli)
  | .extDecoder => .dec (Charset.NewExtDecoder nli)
  | .encoder => .enc (Charset.NewEncoder nli)
  | .extEncoder => .enc (Charset.NewExtEncoder nli)

end Verif.Spec.Race
