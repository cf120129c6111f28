import Verif.Model.CmdPrint
import Verif.Model.CounterPrint
import Verif.Model.Dump

/-!
Model of the command lines of the programs of cmd: of the parts of package flag (`FlagSet.parseOne`, `FlagSet.Parse`
with `ExitOnError`) and of package strconv (`ParseBool`, `ParseInt` with base 0 and 64 bits) that they use, and of the
exit status.  Those packages are not part of /repo; they are modelled from their documentation and sources as of
Go 1.15 and later (before, `-h` ended with status 2).  What goes to the standard error is not modelled.
-/

namespace Verif.Model

namespace Strconv

/-- `strconv.ParseBool`. -/
def ParseBool (s : Bytes) : Option Bool :=
  if s ∈ [b!"1", b!"t", b!"T", b!"TRUE", b!"true", b!"True"] then some true
  else if s ∈ [b!"0", b!"f", b!"F", b!"FALSE", b!"false", b!"False"] then some false
  else none

/-- `lower` of strconv/atoi.go. -/
def lower (c : UInt8) : UInt8 := c ||| 0x20

/-- The value of a digit in any base up to 36, in the loop of `strconv.ParseUint`. -/
def digit (c : UInt8) : Option Nat :=
  if 0x30 ≤ c ∧ c ≤ 0x39 then some (c.toNat - 0x30)
  else if 0x61 ≤ lower c ∧ lower c ≤ 0x7a then some ((lower c).toNat - 0x61 + 10)
  else none

/-- The loop of `strconv.ParseUint`: underscores are skipped.  The number is not limited here (see `ParseInt`). -/
def digits (base : Nat) : Nat → Bytes → Option Nat
  | n, [] => some n
  | n, c :: s =>
    if c = 0x5f then digits base n s
    else match digit c with
      | none => none
      | some d => if base ≤ d then none else digits base (n * base + d) s

/-- The base said by the prefix of a number without its sign, and what follows the prefix. -/
def prefixed : Bytes → Nat × Bytes
  | c :: d :: e :: s =>
    if c = 0x30 then
      if lower d = 0x62 then (2, e :: s)
      else if lower d = 0x6f then (8, e :: s)
      else if lower d = 0x78 then (16, e :: s)
      else (8, d :: e :: s)
    else (10, c :: d :: e :: s)
  | c :: s => if c = 0x30 then (8, s) else (10, c :: s)
  | [] => (10, [])

/-- What the loop of `underscoreOK` saw last. -/
inductive Saw where
  | start | digit | underscore | other
  deriving DecidableEq

/-- The loop of `underscoreOK`. -/
def underscores (hex : Bool) : Saw → Bytes → Bool
  | saw, [] => saw ≠ .underscore
  | saw, c :: s =>
    if (0x30 ≤ c ∧ c ≤ 0x39) ∨ (hex = true ∧ 0x61 ≤ lower c ∧ lower c ≤ 0x66) then underscores hex .digit s
    else if c = 0x5f then (if saw = .digit then underscores hex .underscore s else false)
    else if saw = .underscore then false
    else underscores hex .other s

/-- `underscoreOK` of strconv/atoi.go, of a number without its sign. -/
def underscoreOK : Bytes → Bool
  | c :: d :: s =>
    if c = 0x30 ∧ (lower d = 0x62 ∨ lower d = 0x6f ∨ lower d = 0x78) then underscores (lower d = 0x78) .digit s
    else underscores false .start (c :: d :: s)
  | s => underscores false .start s

/-- `strconv.ParseUint(s, 0, 64)` without its limit. -/
def ParseUint (s : Bytes) : Option Nat :=
  if s = [] then none
  else match digits (prefixed s).1 0 (prefixed s).2 with
    | none => none
    | some n => if 0x5f ∈ (prefixed s).2 ∧ underscoreOK s = false then none else some n

/-- `strconv.ParseInt(s, 0, 64)`; a number out of range is an error like any other.  (`ParseUint` may give up on a
number of more than 64 bits before it sees a character that is not a digit: that is an error in both cases.) -/
def ParseInt (s : Bytes) : Option Int :=
  match s with
  | [] => none
  | c :: r =>
    if c = 0x2d then
      match ParseUint r with
      | some n => if 2 ^ 63 < n then none else some (-(n : Int))
      | none => none
    else match ParseUint (if c = 0x2b then r else s) with
      | some n => if 2 ^ 63 ≤ n then none else some n
      | none => none

end Strconv

namespace Flag

/-- The variable of a flag: `flag.BoolVar`, `flag.StringVar`, `flag.IntVar`. -/
inductive Value where
  | bool (b : Bool)
  | string (s : Bytes)
  | int (i : Int)
  deriving DecidableEq, Repr

/-- The flags of a program with their values, the map `formal` of a `FlagSet`. -/
abbrev FlagSet := List (Bytes × Value)

/-- `Value.Set` of the three kinds. -/
def Value.Set (s : Bytes) : Value → Option Value
  | .bool _ => (Strconv.ParseBool s).map .bool
  | .string _ => some (.string s)
  | .int _ => (Strconv.ParseInt s).map .int

/-- `IsBoolFlag`. -/
def Value.isBool : Value → Bool
  | .bool _ => true
  | _ => false

/-- The flag `name` becomes `v`. -/
def FlagSet.put (f : FlagSet) (name : Bytes) (v : Value) : FlagSet := f.map fun p => if p.1 = name then (name, v) else p

/-- Why `FlagSet.Parse` ends the program: `ErrHelp`, with status 0, or any other error, with status 2. -/
inductive Stop where
  | help | bad
  deriving DecidableEq, Repr

@[inherit_doc Stop] def Stop.status : Stop → Nat
  | .help => 0
  | .bad => 2

/-- The name of a flag and its value, at the first "=" that is not the first character, `FlagSet.parseOne`. -/
def cutName : Bytes → Bytes × Option Bytes
  | [] => ([], none)
  | c :: s => (c :: s.takeWhile (· ≠ 0x3d), match s.dropWhile (· ≠ 0x3d) with
    | [] => none
    | _ :: v => some v)

/-- The dashes of an argument are taken off, `FlagSet.parseOne`: `none` if it is not a flag; `some []` if it is the
two dashes that end the flags. -/
def undash : Bytes → Option Bytes
  | 0x2d :: 0x2d :: name => some name
  | 0x2d :: c :: name => some (c :: name)
  | _ => none

/-- `FlagSet.Parse`: the loop over `FlagSet.parseOne`. -/
def Parse (f : FlagSet) : List Bytes → Except Stop (FlagSet × List Bytes)
  | [] => .ok (f, [])
  | a :: args =>
    match undash a with
    | none => .ok (f, a :: args)
    | some [] => .ok (f, args)
    | some (c :: name) =>
      if c = 0x2d ∨ c = 0x3d then .error .bad
      else match f.lookup (cutName (c :: name)).1 with
        | none => .error (if (cutName (c :: name)).1 = b!"help" ∨ (cutName (c :: name)).1 = b!"h" then .help else .bad)
        | some v =>
          match (cutName (c :: name)).2 with
          | some s => match v.Set s with
            | some v' => Parse (f.put (cutName (c :: name)).1 v') args
            | none => .error .bad
          | none =>
            if v.isBool then Parse (f.put (cutName (c :: name)).1 (.bool true)) args
            else match args with
              | [] => .error .bad
              | s :: args => match v.Set s with
                | some v' => Parse (f.put (cutName (c :: name)).1 v') args
                | none => .error .bad

/-- The variable of a flag of type bool. -/
def FlagSet.bool (f : FlagSet) (name : Bytes) : Bool := match f.lookup name with
  | some (.bool b) => b
  | _ => false

@[inherit_doc FlagSet.bool] def FlagSet.string (f : FlagSet) (name : Bytes) : Bytes := match f.lookup name with
  | some (.string s) => s
  | _ => []

@[inherit_doc FlagSet.bool] def FlagSet.int (f : FlagSet) (name : Bytes) : Int := match f.lookup name with
  | some (.int i) => i
  | _ => 0

end Flag

/-- What a program leaves behind when it does not panic: its standard output and its exit status. -/
structure Ended where
  stdout : Bytes := []
  status : Nat
  deriving DecidableEq, Repr

namespace SmsSubmit

/-- The flags, smssubmit.go:20-24. -/
def flags : Flag.FlagSet := [(b!"number", .string []), (b!"message", .string []), (b!"language", .int 0)]

/-- The program with its arguments (`os.Args[1:]`), smssubmit.go:19-51. -/
def program (args : List Bytes) : M Ended :=
  match Flag.Parse flags args with
  | .error s => .ok { status := s.status }
  | .ok (f, _) => do
    let out ← main (f.string b!"number") (f.string b!"message") (f.int b!"language")
    return { stdout := stdout out, status := if out = .usage then 1 else 0 }

end SmsSubmit

namespace SmsCounter

/-- The flags, smscounter.go:26-27. -/
def flags : Flag.FlagSet := [(b!"message", .string []), (b!"language", .int 0)]

/-- The program with its arguments, smscounter.go:23-39. -/
def program (args : List Bytes) : M Ended :=
  match Flag.Parse flags args with
  | .error s => .ok { status := s.status }
  | .ok (f, _) => do
    let out ← main (f.string b!"message") (f.int b!"language")
    match out with
    | .printed b => return { stdout := b, status := 0 }
    | _ => return { status := 1 }

end SmsCounter

namespace SmsDeliver

/-- The flags, smsdeliver.go:21-22. -/
def flags : Flag.FlagSet := [(b!"p", .bool false)]

/-- The program with its arguments, smsdeliver.go:20-71; `addr` as in `lineText`. -/
def program (addr : Bytes → Nat → Bytes) (args : List Bytes) : M Ended :=
  match Flag.Parse flags args with
  | .error s => .ok { status := s.status }
  | .ok (f, rest) =>
    if rest = [] then .ok { status := 1 }
    else do
      let lines ← main (f.bool b!"p") rest
      return { stdout := stdout addr lines,
               status := if lines.any (fun l => match l with | .fatal _ => true | _ => false) then 1 else 0 }

end SmsDeliver

namespace SmsDecode

/-- The flags, smsdecode.go:23-24. -/
def flags : Flag.FlagSet := [(b!"p", .bool false), (b!"o", .bool false)]

/-- The program with its arguments, smsdecode.go:22-39. -/
def program (args : List Bytes) : M Ended :=
  match Flag.Parse flags args with
  | .error s => .ok { status := s.status }
  | .ok (f, [s]) => do
    let r ← text s (f.bool b!"p") (f.bool b!"o")
    match r with
    | .ok b => return { stdout := b, status := 0 }
    | .error _ => return { status := 1 }
  | .ok _ => .ok { status := 1 }

end SmsDecode
end Verif.Model
