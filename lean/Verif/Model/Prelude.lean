/-!
# Go run-time conventions shared by the whole model

* `byte` = `UInt8`, `[]byte`/`string` = `List UInt8`, `rune` = `Nat` (the value `uint32(r)`).
* A Go call that may fail returns `M α = Except Fault α`.
-/

namespace Verif.Model

/-- Go `[]byte` and `string` (contents only; capacity and aliasing are modelled separately where needed). -/
abbrev Bytes := List UInt8

/-- Go `rune`, represented by `uint32(r)`: a negative rune is a number above 0x10FFFF. -/
macro "Rune" : term => `(Nat)

/-- Error values.  One constructor per error type or error variable of the repository:
bcd/bcd.go:73-89, semioctet/semioctet.go:88-100, gsm7/gsm7.go:248-260, ucs2/ucs2.go:59-70,
tpdu/error.go:14-94, error.go:11-29; `eof` is `io.EOF`, the `hex*` ones are those of encoding/hex. -/
inductive Err where
  | underflow | overlength | invalid | missing | nonZero | oddUCS2Length
  | unsupportedSmsType (st : UInt8)
  | bcdInvalidOctet (b : UInt8) | bcdInvalidInteger (i : Int)
  | semiInvalidDigit (b : UInt8) | semiMissingFill
  | gsm7InvalidSeptet (b : UInt8) | gsm7InvalidUTF8 (r : Rune)
  | ucs2Dangling (b : Bytes) | ucs2InvalidLength
  /-- `tpdu.DecodeError{Field, Offset, Err}`, tpdu/error.go:15-19. -/
  | decode (field : String) (offset : Nat) (e : Err)
  /-- `tpdu.encodeError{Field, Err}`, tpdu/error.go:39-42. -/
  | encode (field : String) (e : Err)
  | closed | dcsConflict | duplicateSegment | reassemblyInconsistency
  | eof | hexInvalidByte (b : UInt8) | hexOddLength
  deriving DecidableEq, Repr

/-- Go run-time panics, plus `diverge` for a loop that never terminates. -/
inductive PanicKind where
  | index | slice | divide | makeslice | diverge | nil
  deriving DecidableEq, Repr

/-- Abnormal outcome of a Go call: an error value, or a run-time panic / non-termination. -/
inductive Fault where
  | err (e : Err)
  | panic (k : PanicKind)
  deriving DecidableEq, Repr

/-- A Go call returning `(α, error)` that may also panic. -/
abbrev M (α : Type) := Except Fault α

instance {ε α : Type} [DecidableEq ε] [DecidableEq α] : DecidableEq (Except ε α) := fun a b =>
  match a, b with
  | .ok x, .ok y => if h : x = y then isTrue (h ▸ rfl) else isFalse (fun h' => h (by cases h'; rfl))
  | .error x, .error y => if h : x = y then isTrue (h ▸ rfl) else isFalse (fun h' => h (by cases h'; rfl))
  | .ok _, .error _ => isFalse (fun h => by cases h)
  | .error _, .ok _ => isFalse (fun h => by cases h)

/-- `return ..., err`. -/
def fail {α : Type} (e : Err) : M α := .error (.err e)

/-- A run-time panic. -/
def panicM {α : Type} (k : PanicKind) : M α := .error (.panic k)

/-- Go index expression `l[i]` (panics when out of range). -/
def idx {α : Type} (l : List α) (i : Int) : M α :=
  if 0 ≤ i then
    match l[i.toNat]? with
    | some x => .ok x
    | none => panicM .index
  else panicM .index

/-- Go slice expression `l[a:b]` (panics when out of range).  Go checks `b` against the capacity; the
model checks against the length, which is stricter. -/
def slice {α : Type} (l : List α) (a b : Int) : M (List α) :=
  if 0 ≤ a ∧ a ≤ b ∧ b ≤ l.length then .ok ((l.take b.toNat).drop a.toNat) else panicM .slice

/-- Go conversion `byte(i)` of an int: truncation modulo 256. -/
def byteOf (i : Int) : UInt8 := UInt8.ofNat (i % 256).toNat

/-- Go `x << n` on bytes (0 when `n ≥ 8`). -/
def shl8 (x : UInt8) (n : Nat) : UInt8 := UInt8.ofNat (x.toNat <<< n)

/-- Go `x >> n` on bytes (0 when `n ≥ 8`). -/
def shr8 (x : UInt8) (n : Nat) : UInt8 := UInt8.ofNat (x.toNat >>> n)

/-- Go `x &^ y`. -/
def andNot (x y : UInt8) : UInt8 := x &&& ~~~ y

/-- `NewDecodeError`, tpdu/error.go:27-37. -/
def newDecodeError (f : String) (o : Nat) (e : Err) : Err :=
  match e with
  | .decode f' o' e' => .decode (f ++ "." ++ f') (o' + o) e'
  | .eof => .decode f o .underflow
  | e => .decode f o e

/-- `EncodeError`, tpdu/error.go:48-54. -/
def encodeError (f : String) (e : Err) : Err :=
  match e with
  | .encode f' e' => .encode (f ++ "." ++ f') e'
  | e => .encode f e

/-- `if err != nil { return NewDecodeError(f, o, err) }`. Panics propagate. -/
def wrapD {α : Type} (f : String) (o : Nat) (m : M α) : M α :=
  match m with
  | .ok a => .ok a
  | .error (.err e) => fail (newDecodeError f o e)
  | .error (.panic k) => panicM k

/-- `if err != nil { return nil, EncodeError(f, err) }`. Panics propagate. -/
def wrapE {α : Type} (f : String) (m : M α) : M α :=
  match m with
  | .ok a => .ok a
  | .error (.err e) => fail (encodeError f e)
  | .error (.panic k) => panicM k

end Verif.Model
