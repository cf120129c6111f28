import Verif.Spec.Language

/-! Options that offer the same national language tables. -/

namespace Verif.Spec
open Verif.Model

/-- The options offer the same tables to an encoder, perhaps in another order or more than once. -/
def SameOffer (o o' : List CharsetOpt) : Prop :=
  (∀ n, n ∈ offeredLocking o ↔ n ∈ offeredLocking o') ∧ ∀ n, n ∈ offeredShift o ↔ n ∈ offeredShift o'

end Verif.Spec
