import Verif.Model.Prelude

/-!
Model of `sms.Counter` used by several goroutines, encode.go:116-133.

A call goes through three steps, between which the other goroutines may take any number of steps: it is
*called*, it does its one atomic memory access, and it *returns* the value it got.  The atomicity of
`atomic.AddInt64` and `atomic.LoadInt64` is trusted.
-/

namespace Verif.Model.Atomic

/-- The methods `Count` and `Read` of `Counter`, encode.go:124-133. -/
inductive Op where
  | count
  | read
  deriving DecidableEq, Repr

/-- `int(x)` for an `int64` `x`, on a platform where an `int` has `w` bits. -/
def intOf (w : Nat) (x : Int64) : Int := x.toInt.bmod (2 ^ w)

/-- Where a goroutine is: between calls, in a call before the memory access, or after it, holding the value
to be returned. -/
inductive Thread where
  | idle
  | called (op : Op)
  | done (op : Op) (v : Int)
  deriving DecidableEq, Repr

/-- The memory `Counter.c` and the goroutines. -/
structure State where
  c : Int64
  threads : List Thread

/-- What can be observed of a goroutine: its calls and returns. -/
inductive Event where
  | call (thread : Nat) (op : Op)
  | ret (thread : Nat) (op : Op) (v : Int)
  deriving DecidableEq, Repr

/-- The atomic access of a method: the memory afterwards and the value returned, encode.go:124-126
(`atomic.AddInt64(&c.c, 1)` returns the new value) and :131-133. -/
def access (w : Nat) (c : Int64) : Op → Int64 × Int
  | .count => (c + 1, intOf w (c + 1))
  | .read => (c, intOf w c)

/-- One step of goroutine number `i`; the observable event it makes, if any.  A goroutine that is idle may
call either method at any time. -/
inductive Step (w : Nat) : State → List Event → State → Prop
  | call (c : Int64) (before after : List Thread) (op : Op) :
      Step w ⟨c, before ++ .idle :: after⟩ [.call before.length op] ⟨c, before ++ .called op :: after⟩
  | access (c : Int64) (before after : List Thread) (op : Op) :
      Step w ⟨c, before ++ .called op :: after⟩ [] ⟨(access w c op).1, before ++ .done op (access w c op).2 :: after⟩
  | ret (c : Int64) (before after : List Thread) (op : Op) (v : Int) :
      Step w ⟨c, before ++ .done op v :: after⟩ [.ret before.length op v] ⟨c, before ++ .idle :: after⟩

/-- `Exec w n h s`: with `n` goroutines and a zero `Counter`, the history `h` of events is possible and may
lead to the state `s`. -/
inductive Exec (w n : Nat) : List Event → State → Prop
  | start : Exec w n [] ⟨0, List.replicate n .idle⟩
  | step {h s e s'} : Exec w n h s → Step w s e s' → Exec w n (h ++ e) s'

end Verif.Model.Atomic
