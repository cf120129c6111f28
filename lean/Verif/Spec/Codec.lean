import Verif.Spec.Utf16

/-! When a reader of septets with two tables undoes a writer with two tables.  A table is a partial function: `set` for
septets that stand alone, `ext` for septets after an escape (0x1b). -/

namespace Verif.Spec

/-- The character that Go writes for an integer: U+FFFD if there is none. -/
def Stands (m u : Nat) : Prop := Scalar m ∧ m = u ∨ ¬ Scalar m ∧ u = 0xFFFD

/-- In the table for single septets, `g` is the character `u`; a lenient reader takes what is missing for a space. -/
def InSet (set : UInt8 → Option Nat) (strict : Bool) (g : UInt8) (u : Nat) : Prop :=
  (∃ m, set g = some m ∧ Stands m u) ∨ (set g = none ∧ strict = false ∧ u = 0x20)

/-- The septet `g` alone is read as the character `u`. -/
def ReadAlone (set : UInt8 → Option Nat) (strict : Bool) (g : UInt8) (u : Nat) : Prop :=
  g ≠ 0x1b ∧ InSet set strict g u

/-- The septet `g` after an escape is read as the character `u`: a second escape is a space, and a lenient reader
looks a septet that is missing up in the other table. -/
def ReadEscaped (set ext : UInt8 → Option Nat) (strict : Bool) (g : UInt8) (u : Nat) : Prop :=
  (g = 0x1b ∧ u = 0x20) ∨
  (g ≠ 0x1b ∧ ((∃ m, ext g = some m ∧ Stands m u) ∨ (ext g = none ∧ strict = false ∧ InSet set strict g u)))

/-- Each character that can be written is read back from the septets written for it. -/
def Undoes (wset wext : Nat → Option UInt8) (set ext : UInt8 → Option Nat) (strict : Bool) : Prop :=
  ∀ u g, Scalar u → (wset u = some g → ReadAlone set strict g u) ∧
    (wset u = none → wext u = some g → ReadEscaped set ext strict g u)

end Verif.Spec
