import Verif.Model.Prelude

/-! Model of encoding/gsm7/7bit.go. -/

namespace Verif.Model.Gsm7

/-- 7bit.go:7. -/
def cr : UInt8 := 0x0d

/-- The loop and epilogue of `Pack7Bit`, 7bit.go:26-41: `r` is the residual, `rbits` the number of residual
bits.  Instead of appending to `p` the emitted octets are consed in order. -/
def packLoop : Bytes → UInt8 → Nat → Bytes
  | [], r, rbits => if rbits ≠ 0 then [r] else []
  | s :: u, r, rbits =>
    if rbits = 0 then packLoop u s 7
    else ((r ||| shl8 s rbits) &&& 0xff) :: packLoop u (shr8 s (8 - rbits)) (rbits - 1)

/-- `Pack7Bit`, 7bit.go:19-42.  `fillBits` is a Go int; callers pass 0..6 (other values: Model/SevenBitAny.lean). -/
def Pack7Bit (u : Bytes) (fillBits : Nat) : Bytes :=
  if u.length = 0 then [] else packLoop u 0 fillBits

/-- The loop of `Unpack7Bit`, 7bit.go:59-72. -/
def unpackLoop : Bytes → UInt8 → Nat → Bytes
  | [], _, _ => []
  | o :: p, r, rbits =>
    let r := (r ||| shl8 o rbits) &&& 0x7f
    if rbits = 6 then r :: (o >>> 1) :: unpackLoop p 0 0
    else r :: unpackLoop p (shr8 o (8 - (rbits + 1))) (rbits + 1)

/-- `Unpack7Bit`, 7bit.go:49-77, for `fillBits` in 0..7 (callers pass 0..6). `u[1:]` is `drop 1`: `u` is
never empty there because every octet emits at least one septet. -/
def Unpack7Bit (p : Bytes) (fillBits : Nat) : Bytes :=
  if p.length = 0 then []
  else
    let rbits := if fillBits ≠ 0 then 7 - fillBits else 0
    let u := unpackLoop p 0 rbits
    if fillBits > 0 then u.drop 1 else u

/-- `Pack7BitUSSD`, 7bit.go:88-100. -/
def Pack7BitUSSD (u : Bytes) (fillBits : Nat) : M Bytes := do
  let b := Pack7Bit u fillBits
  if b.length = 0 then return []
  let last := b.length - 1
  let bl ← idx b last
  let ul ← idx u (u.length - 1 : Int)
  if bl &&& (~~~ 1) = 0 ∧ ul ≠ 0 then
    return b.set last (bl ||| (cr <<< 1))
  else if u.length &&& 7 = 0 ∧ ul = cr then
    return b ++ [cr]
  else return b

/-- `Unpack7BitUSSD`, 7bit.go:111-118. -/
def Unpack7BitUSSD (p : Bytes) (fillBits : Nat) : M Bytes := do
  let u := Unpack7Bit p fillBits
  if p.length > 1 then
    let l1 ← idx p (p.length - 1 : Int)
    let l2 ← idx p (p.length - 2 : Int)
    if l1 >>> 1 = cr ∨ (l1 = cr ∧ l2 >>> 1 = cr) then
      slice u 0 (u.length - 1 : Int)
    else return u
  else return u

end Verif.Model.Gsm7
