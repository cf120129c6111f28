/-! Big-endian UTF-16 text. -/

namespace Verif.Spec

/-- Big-endian 16-bit units of an octet string (an odd last octet is ignored). -/
def units : List UInt8 → List Nat
  | h :: l :: t => (256 * h.toNat + l.toNat) :: units t
  | _ => []

def HighSurrogate (u : Nat) : Prop := 0xD800 ≤ u ∧ u < 0xDC00
def LowSurrogate (u : Nat) : Prop := 0xDC00 ≤ u ∧ u < 0xE000
def Surrogate (u : Nat) : Prop := 0xD800 ≤ u ∧ u < 0xE000

/-- Unicode scalar values: code points that are not surrogates. -/
def Scalar (r : Nat) : Prop := r < 0xD800 ∨ (0xE000 ≤ r ∧ r ≤ 0x10FFFF)

instance (r : Nat) : Decidable (Scalar r) := by unfold Scalar; infer_instance
instance (r : Nat) : Decidable (Surrogate r) := by unfold Surrogate; infer_instance

/-- `Groups us rs`: the units `us` can be cut into characters `rs`.  A surrogate is grouped with the unit
after it: a high-low pair is a supplementary character, any other such group is U+FFFD. -/
inductive Groups : List Nat → List Nat → Prop
  | nil : Groups [] []
  | unit {u us rs} : ¬ Surrogate u → Groups us rs → Groups (u :: us) (u :: rs)
  | pair {h l us rs} : HighSurrogate h → LowSurrogate l → Groups us rs →
      Groups (h :: l :: us) ((0x10000 + (h - 0xD800) * 1024 + (l - 0xDC00)) :: rs)
  | broken {a b us rs} : Surrogate a → ¬ (HighSurrogate a ∧ LowSurrogate b) → Groups us rs →
      Groups (a :: b :: us) (0xFFFD :: rs)

end Verif.Spec
