import Verif.Model.CommandLine

/-! How a command line is written: flags with their values, and then the other arguments.  The grammar of numbers
is that of Go. -/

namespace Verif.Spec
open Verif.Model

/-- The kinds of flags. -/
inductive FlagKind where
  | switch | text | number
  deriving DecidableEq

/-- The argument is `s` behind one dash or two. -/
def Dashed (a s : Bytes) : Prop := a = 0x2d :: s ∨ a = 0x2d :: 0x2d :: s

/-- `ArgsSay kind args gs rest`: the arguments give the flags `gs`, each with the text of its value, and then the
arguments `rest`.  A switch stands alone; the value of any other flag is the next argument, whatever that is, or
follows an equals sign.  The flags end at an argument that does not begin with a dash, or is just a dash, or at two
dashes, which are dropped. -/
inductive ArgsSay (kind : Bytes → Option FlagKind) : List Bytes → List (Bytes × Bytes) → List Bytes → Prop
  | none : ArgsSay kind [] [] []
  | plain {a : Bytes} {args : List Bytes} : (∀ c s, a ≠ 0x2d :: c :: s) → ArgsSay kind (a :: args) [] (a :: args)
  | dashes {args : List Bytes} : ArgsSay kind ([0x2d, 0x2d] :: args) [] args
  | on {a name : Bytes} {args gs rest} : Dashed a name → kind name = some .switch → ArgsSay kind args gs rest →
      ArgsSay kind (a :: args) ((name, b!"true") :: gs) rest
  | equals {a name v : Bytes} {k} {args gs rest} : Dashed a (name ++ b!"=" ++ v) → kind name = some k → ArgsSay kind args gs rest →
      ArgsSay kind (a :: args) ((name, v) :: gs) rest
  | next {a name v : Bytes} {k} {args gs rest} : Dashed a name → kind name = some k → k ≠ .switch → ArgsSay kind args gs rest →
      ArgsSay kind (a :: v :: args) ((name, v) :: gs) rest

/-- A digit of a number, with its value; letters of either case from ten on. -/
def NumberDigit (c : UInt8) (d : Nat) : Prop :=
  (d < 10 ∧ c = UInt8.ofNat (0x30 + d)) ∨ (10 ≤ d ∧ d < 36 ∧ (c = UInt8.ofNat (0x61 + (d - 10)) ∨ c = UInt8.ofNat (0x41 + (d - 10))))

/-- `MoreDigits base n s m`: with the digits `s` behind it the number `n` becomes `m`; there may be an underscore
before a digit. -/
inductive MoreDigits (base : Nat) : Nat → Bytes → Nat → Prop
  | nil {n} : MoreDigits base n [] n
  | digit {n c d s m} : NumberDigit c d → d < base → MoreDigits base (n * base + d) s m → MoreDigits base n (c :: s) m
  | underscore {n c d s m} : NumberDigit c d → d < base → MoreDigits base (n * base + d) s m → MoreDigits base n (0x5f :: c :: s) m

/-- A number without a sign: decimal if it does not begin with 0; binary, octal or hexadecimal behind 0b, 0o and 0x;
octal behind 0. -/
inductive Magnitude : Bytes → Nat → Prop
  | decimal {c d s n} : NumberDigit c d → d < 10 → d ≠ 0 → MoreDigits 10 d s n → Magnitude (c :: s) n
  | zero {s n} : MoreDigits 8 0 s n → Magnitude (0x30 :: s) n
  | binary {c s n} : c = 0x62 ∨ c = 0x42 → s ≠ [] → MoreDigits 2 0 s n → Magnitude (0x30 :: c :: s) n
  | octal {c s n} : c = 0x6f ∨ c = 0x4f → s ≠ [] → MoreDigits 8 0 s n → Magnitude (0x30 :: c :: s) n
  | hex {c s n} : c = 0x78 ∨ c = 0x58 → s ≠ [] → MoreDigits 16 0 s n → Magnitude (0x30 :: c :: s) n

/-- A number of 64 bits. -/
inductive Numeral : Bytes → Int → Prop
  | plain {s n} : Magnitude s n → n < 2 ^ 63 → Numeral s n
  | plus {s n} : Magnitude s n → n < 2 ^ 63 → Numeral (0x2b :: s) n
  | minus {s n} : Magnitude s n → n ≤ 2 ^ 63 → Numeral (0x2d :: s) (-(n : Int))

/-- The texts of a truth value. -/
def Truth (s : Bytes) (b : Bool) : Prop :=
  s ∈ if b then [b!"1", b!"t", b!"T", b!"true", b!"TRUE", b!"True"] else [b!"0", b!"f", b!"F", b!"false", b!"FALSE", b!"False"]

/-- The text of the value of a flag means the value. -/
inductive Means : FlagKind → Bytes → Flag.Value → Prop
  | switch {s b} : Truth s b → Means .switch s (.bool b)
  | text {s} : Means .text s (.string s)
  | number {s i} : Numeral s i → Means .number s (.int i)

/-- The kind of a flag is that of its value. -/
def kindOf : Flag.Value → FlagKind
  | .bool _ => .switch
  | .string _ => .text
  | .int _ => .number

/-- The kinds of the flags of a program. -/
def kinds (f : Flag.FlagSet) (name : Bytes) : Option FlagKind := (f.lookup name).map kindOf

/-- The text of the last flag of this name. -/
def lastOf (gs : List (Bytes × Bytes)) (name : Bytes) : Option Bytes := gs.reverse.lookup name

/-- All values have a meaning. -/
def Readable (kind : Bytes → Option FlagKind) (gs : List (Bytes × Bytes)) : Prop :=
  ∀ g ∈ gs, ∃ k v, kind g.1 = some k ∧ Means k g.2 v

/-- From the values `f`, the flags `gs` lead to the values `f'`: the last of a name counts, the others have to be
meaningful as well. -/
def Settled (f : Flag.FlagSet) (gs : List (Bytes × Bytes)) (f' : Flag.FlagSet) : Prop :=
  Readable (kinds f) gs ∧ f'.map Prod.fst = f.map Prod.fst ∧
  ∀ name v, f.lookup name = some v → ∃ v', f'.lookup name = some v' ∧ match lastOf gs name with
    | none => v' = v
    | some s => Means (kindOf v) s v'

/-- What a name of a flag looks like. -/
def FlagName (name : Bytes) : Prop := ∃ c s, name = c :: s ∧ c ≠ 0x2d ∧ c ≠ 0x3d ∧ 0x3d ∉ s

/-- The flags ask for help, before anything that is not understood. -/
inductive AsksHelp (kind : Bytes → Option FlagKind) : List Bytes → Prop
  | ask {a name : Bytes} {args} : name = b!"h" ∨ name = b!"help" → kind name = none → Dashed a name → AsksHelp kind (a :: args)
  | askEquals {a name v : Bytes} {args} : name = b!"h" ∨ name = b!"help" → kind name = none → Dashed a (name ++ b!"=" ++ v) →
      AsksHelp kind (a :: args)
  | on {a name : Bytes} {args} : Dashed a name → kind name = some .switch → AsksHelp kind args → AsksHelp kind (a :: args)
  | equals {a name v : Bytes} {k w} {args} : Dashed a (name ++ b!"=" ++ v) → kind name = some k → Means k v w → AsksHelp kind args →
      AsksHelp kind (a :: args)
  | next {a name v : Bytes} {k w} {args} : Dashed a name → kind name = some k → k ≠ .switch → Means k v w → AsksHelp kind args →
      AsksHelp kind (a :: v :: args)

/-- The text given with a flag: the last one, or nothing. -/
def TextOf (gs : List (Bytes × Bytes)) (name s : Bytes) : Prop := s = (lastOf gs name).getD []

/-- The number given with a flag: the last one, or 0. -/
def NumberOf (gs : List (Bytes × Bytes)) (name : Bytes) (i : Int) : Prop := match lastOf gs name with
  | none => i = 0
  | some s => Numeral s i

/-- Whether a switch is on: the last one counts. -/
def SwitchOf (gs : List (Bytes × Bytes)) (name : Bytes) (b : Bool) : Prop := match lastOf gs name with
  | none => b = false
  | some s => Truth s b

/-- The flags of smssubmit. -/
def submitFlags (name : Bytes) : Option FlagKind :=
  if name = b!"number" ∨ name = b!"message" then some .text else if name = b!"language" then some .number else none

/-- The flags of smscounter. -/
def counterFlags (name : Bytes) : Option FlagKind :=
  if name = b!"message" then some .text else if name = b!"language" then some .number else none

/-- The flag of smsdeliver. -/
def deliverFlags (name : Bytes) : Option FlagKind := if name = b!"p" then some .switch else none

/-- The flags of smsdecode. -/
def decodeFlags (name : Bytes) : Option FlagKind := if name = b!"p" ∨ name = b!"o" then some .switch else none

end Verif.Spec
