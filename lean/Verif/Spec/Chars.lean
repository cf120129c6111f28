import Verif.Model.Dcs
import Verif.Spec.Utf16

/-! Where an encoded message may be cut. -/

namespace Verif.Spec
open Verif.Model

/-- An escape is pending after `p`: it ends in an odd number of escape septets. -/
def EscapePending (p : List UInt8) : Prop := (p.reverse.takeWhile (· == 0x1b)).length % 2 = 1

instance (p : List UInt8) : Decidable (EscapePending p) := by unfold EscapePending; infer_instance

/-- Cutting the message `x ++ y` between `x` and `y` splits a character: it separates an escape septet from
the septet it shifts, or the octets of a unit, or the units of a surrogate pair. -/
def SplitsChar : Alphabet → List UInt8 → List UInt8 → Prop
  | .ucs2, x, y => x.length % 2 = 1 ∨
      ∃ h l, (units x).getLast? = some h ∧ (units y).head? = some l ∧ HighSurrogate h ∧ LowSurrogate l
  | .a8Bit, _, _ => False
  | _, x, _ => EscapePending x

/-- Three escapes in a row do not occur. -/
def NoTripleEsc (msg : List UInt8) : Prop :=
  ∀ i : Nat, ¬ (msg[i]? = some 0x1b ∧ msg[i + 1]? = some 0x1b ∧ msg[i + 2]? = some 0x1b)

/-- Every high surrogate is followed by a low surrogate. -/
def Paired (us : List Nat) : Prop :=
  ∀ (i : Nat) h, us[i]? = some h → HighSurrogate h → ∃ l, us[i + 1]? = some l ∧ LowSurrogate l

end Verif.Spec
