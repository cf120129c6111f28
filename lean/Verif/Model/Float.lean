import Verif.Model.Prelude

/-! Model of `Duration.Hours`, `Minutes` and `Seconds` of package time followed by the conversion to `int`, as
validityperiod.go:74 uses them: a quotient and a sum in IEEE 754 double precision, each rounded to nearest, ties to
even.  Numbers are the non-negative fractions `m / 2^k`; subnormal numbers, overflow and results of 2^53 and more do
not occur here and are not modelled (a duration is less than 2^34 seconds). -/

namespace Verif.Model.Float

/-- The integer nearest to `a / b`, the even one if there are two. -/
def nearest (a b : Nat) : Nat :=
  if 2 * (a % b) < b then a / b
  else if b < 2 * (a % b) then a / b + 1
  else a / b + a / b % 2

/-- The number of fraction bits of the double precision numbers around `a / b`: that which gives `a / b * 2^k` 53
binary digits before the point. -/
def bits (a b : Nat) : Nat :=
  let k := 52 + Nat.log2 b - Nat.log2 a
  if a * 2 ^ k < 2 ^ 52 * b then k + 1 else k

/-- The double precision number nearest to `a / b`, as `(m, k)` for `m / 2^k`. -/
def round (a b : Nat) : Nat × Nat :=
  if a = 0 then (0, 0) else (nearest (a * 2 ^ bits a b) b, bits a b)

/-- `float64(w) + float64(n)/unit` for a whole number `w`: the body of `Duration.Hours` with `w` hours and `n`
nanoseconds (`w` and `n` are below 2^53 and so are exact). -/
def sum (w n unit : Nat) : Nat × Nat :=
  let q := round n unit
  round (w * 2 ^ q.2 + q.1) (2 ^ q.2)

/-- `int(d.Hours())` with `unit` an hour in nanoseconds, and so `Minutes` and `Seconds`.  The quotient and the
remainder of a negative duration are both negative or zero, and rounding is symmetric, so the sign carries over. -/
def whole (d unit : Int) : Int :=
  let x := sum (d.natAbs / unit.natAbs) (d.natAbs % unit.natAbs) unit.natAbs
  d.sign * (x.1 / 2 ^ x.2 : Nat)

end Verif.Model.Float
