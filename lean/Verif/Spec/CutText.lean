import Verif.Spec.Chars
import Verif.Model.Unicode

/-! When the text of septets that are cut in two is that of the whole. -/

namespace Verif.Spec
open Verif.Model

/-- The text of a septet that is not shifted. -/
def plainText (set : List (UInt8 × Nat)) (g : UInt8) : List UInt8 := match set.lookup g with
  | some m => Unicode.encodeRune m
  | none => [0x20]

/-- The text of a septet after an escape. -/
def shiftedText (set ext : List (UInt8 × Nat)) (g : UInt8) : List UInt8 := match ext.lookup g with
  | some m => Unicode.encodeRune m
  | none => plainText set g

/-- Read after an escape, `b` gives a space and then what it gives on its own: an even number of escapes and
nothing more, or an odd number of escapes and a septet that means the same shifted and plain. -/
def SameAfterEscape (set ext : List (UInt8 × Nat)) (b : List UInt8) : Prop :=
  match b.dropWhile (· == 0x1b) with
  | [] => (b.takeWhile (· == 0x1b)).length % 2 = 0
  | g :: _ => (b.takeWhile (· == 0x1b)).length % 2 = 1 ∧ shiftedText set ext g = plainText set g

end Verif.Spec
