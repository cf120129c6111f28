import Verif.Model.UserData

/-! What the concatenation elements of a user data header say, 3GPP TS 23.040 9.2.3.24, 9.2.3.24.1 and 9.2.3.24.8. -/

namespace Verif.Spec
open Model

/-- `Says e n seq ref`: the element marks a TPDU as part `seq` of the `n` parts of the message with reference `ref`,
which is given in one octet (element 0) or two (element 8). -/
inductive Says : IE → Nat → Nat → Nat → Prop
  | short (ref n seq : UInt8) : Says ⟨0, [ref, n, seq]⟩ n.toNat seq.toNat ref.toNat
  | long (hi lo n seq : UInt8) : Says ⟨8, [hi, lo, n, seq]⟩ n.toNat seq.toNat (256 * hi.toNat + lo.toNat)

/-- An element that is to be ignored says that there are no parts, or numbers its part 0 or above their number. -/
def Valid (n seq : Nat) : Prop := 1 ≤ seq ∧ seq ≤ n

/-- By the standard a TPDU is part `seq` of `n` of message `ref` if the last element that says something valid says so:
of several elements with the same meaning, or with meanings that exclude each other, the last one counts. -/
def Part (udh : List IE) (n seq ref : Nat) : Prop :=
  ∃ a e b, udh = a ++ e :: b ∧ Says e n seq ref ∧ Valid n seq ∧
    ∀ x ∈ b, ∀ n' seq' ref', Says x n' seq' ref' → ¬ Valid n' seq'

/-- `e` is the last element of the header with the identifier. -/
def LastOf (udh : List IE) (id : UInt8) (e : IE) : Prop :=
  e.ID = id ∧ ∃ a b, udh = a ++ e :: b ∧ ∀ x ∈ b, x.ID ≠ id

end Verif.Spec
