import Verif.Model.SevenBit

/-!
encoding/gsm7/7bit.go once more, for every value of the `int` argument `fillBits`: `uint` is taken to have 64
bits and its arithmetic wraps.  `Model/SevenBit.lean` covers the values in 0..7.
-/

namespace Verif.Model.Gsm7

/-- Go conversion `uint(i)` of an int, and `uint` arithmetic: modulo 2^64. -/
def u64 (i : Int) : Nat := (i % 0x10000000000000000).toNat

/-- Go `x << n` and `x >> n` on bytes with a `uint` count: 0 when `n ≥ 8`. -/
def shlU (x : UInt8) (n : Nat) : UInt8 := if n < 8 then shl8 x n else 0
@[inherit_doc shlU] def shrU (x : UInt8) (n : Nat) : UInt8 := if n < 8 then shr8 x n else 0

/-- `make([]byte, 0, c)`, 7bit.go:23 and :53: panics when the capacity is negative.  That memory may run out is
not modelled. -/
def makeCap (c : Int) : M Unit := if c < 0 then panicM .makeslice else .ok ()

/-- The loop and epilogue of `Pack7Bit`, 7bit.go:26-41; `rbits` is a `uint`. -/
def packLoopAny : Bytes → UInt8 → Nat → Bytes
  | [], r, rbits => if rbits ≠ 0 then [r] else []
  | s :: u, r, rbits =>
    if rbits = 0 then packLoopAny u s 7
    else ((r ||| shlU s rbits) &&& 0xff) ::
      packLoopAny u (shrU s (u64 (8 - (rbits : Int)))) (u64 ((rbits : Int) - 1))

/-- `Pack7Bit`, 7bit.go:19-42, any `fillBits`; the `int` sum of line 23 is taken not to overflow.  Go's `/`
truncates. -/
def Pack7BitAny (u : Bytes) (fillBits : Int) : M Bytes := do
  if u.length = 0 then return []
  makeCap (((u.length : Int) * 7 + 7 + fillBits).tdiv 8)
  return packLoopAny u 0 (u64 fillBits)

/-- The loop of `Unpack7Bit`, 7bit.go:59-72. -/
def unpackLoopAny : Bytes → UInt8 → Nat → Bytes
  | [], _, _ => []
  | o :: p, r, rbits =>
    let r := (r ||| shlU o rbits) &&& 0x7f
    if rbits = 6 then r :: (o >>> 1) :: unpackLoopAny p 0 0
    else
      let rbits := u64 ((rbits : Int) + 1)
      r :: unpackLoopAny p (shrU o (u64 (8 - (rbits : Int)))) rbits

/-- `Unpack7Bit`, 7bit.go:49-77, any `fillBits`. -/
def Unpack7BitAny (p : Bytes) (fillBits : Int) : M Bytes := do
  if p.length = 0 then return []
  makeCap (((p.length : Int) * 8 + 6 + fillBits).tdiv 7)
  let rbits := if fillBits ≠ 0 then u64 (7 - fillBits) else 0
  let u := unpackLoopAny p 0 rbits
  if fillBits > 0 then slice u 1 u.length else return u

/-- `Pack7BitUSSD`, 7bit.go:88-100, any `fillBits`. -/
def Pack7BitUSSDAny (u : Bytes) (fillBits : Int) : M Bytes := do
  let b ← Pack7BitAny u fillBits
  if b.length = 0 then return []
  let last := b.length - 1
  let bl ← idx b last
  let ul ← idx u (u.length - 1 : Int)
  if bl &&& (~~~ 1) = 0 ∧ ul ≠ 0 then
    return b.set last (bl ||| (cr <<< 1))
  else if u.length &&& 7 = 0 ∧ ul = cr then
    return b ++ [cr]
  else return b

/-- `Unpack7BitUSSD`, 7bit.go:111-118, any `fillBits`. -/
def Unpack7BitUSSDAny (p : Bytes) (fillBits : Int) : M Bytes := do
  let u ← Unpack7BitAny p fillBits
  if p.length > 1 then
    let l1 ← idx p (p.length - 1 : Int)
    let l2 ← idx p (p.length - 2 : Int)
    if l1 >>> 1 = cr ∨ (l1 = cr ∧ l2 >>> 1 = cr) then
      slice u 0 (u.length - 1 : Int)
    else return u
  else return u

end Verif.Model.Gsm7
