import Verif.Model.Charset

/-!
The global tables of encoding/gsm7/charset, which are built when first asked for (charset.go:9-76), used by several
goroutines.  Elsewhere in the model these tables are constants (`Model/Charset.lean`).

A goroutine accesses a variable in one step, and the others may take any number of steps in between.  The steps of
all goroutines happen in some order and each sees the effects of those before it (sequential consistency); Go
promises this only to programs without data races, see `Spec/Race.lean`.  The values of the variables are maps that
are not changed once they are stored.
-/

namespace Verif.Model.Lazy
open Charset CharsetData

/-- The four functions of charset.go that take a language, with those for the default language. -/
inductive Kind where
  | decoder | extDecoder | encoder | extEncoder
  deriving DecidableEq, Repr

/-- A global variable of the package: `turkishDecoder` is `⟨.decoder, 1⟩`, `defaultExtEncoder` is `⟨.extEncoder, 0⟩`. -/
structure Var where
  kind : Kind
  nli : Nat
  deriving DecidableEq, Repr

/-- The value of a variable other than nil. -/
inductive Table where
  | dec (d : Decoder)
  | enc (e : Encoder)
  deriving DecidableEq, Repr

/-- The initial values of the variables, as in the `var` blocks of default.go:7-27, turkish.go:7-34, spanish.go:7-31,
portuguese.go:7-54, bengali.go:7-213 and so on; `none` is nil.  (Variables that do not exist are nil.) -/
def initial : Var → Option Table
  | ⟨.decoder, 4⟩ => some (.dec bengaliDecoder)
  | ⟨.decoder, 5⟩ => some (.dec gujaratiDecoder)
  | ⟨.decoder, 6⟩ => some (.dec hindiDecoder)
  | ⟨.decoder, 7⟩ => some (.dec kannadaDecoder)
  | ⟨.decoder, 8⟩ => some (.dec malayalamDecoder)
  | ⟨.decoder, 9⟩ => some (.dec oriyaDecoder)
  | ⟨.decoder, 10⟩ => some (.dec punjabiDecoder)
  | ⟨.decoder, 11⟩ => some (.dec tamilDecoder)
  | ⟨.decoder, 12⟩ => some (.dec teluguDecoder)
  | ⟨.decoder, 13⟩ => some (.dec urduDecoder)
  | ⟨.extDecoder, 0⟩ => some (.dec defaultExtDecoder)
  | ⟨.extDecoder, 1⟩ => some (.dec turkishExtDecoder)
  | ⟨.extDecoder, 2⟩ => some (.dec spanishExtDecoder)
  | ⟨.extDecoder, 3⟩ => some (.dec portugueseExtDecoder)
  | ⟨.extDecoder, 4⟩ => some (.dec bengaliExtDecoder)
  | ⟨.extDecoder, 5⟩ => some (.dec gujaratiExtDecoder)
  | ⟨.extDecoder, 6⟩ => some (.dec hindiExtDecoder)
  | ⟨.extDecoder, 7⟩ => some (.dec kannadaExtDecoder)
  | ⟨.extDecoder, 8⟩ => some (.dec malayalamExtDecoder)
  | ⟨.extDecoder, 9⟩ => some (.dec oriyaExtDecoder)
  | ⟨.extDecoder, 10⟩ => some (.dec punjabiExtDecoder)
  | ⟨.extDecoder, 11⟩ => some (.dec tamilExtDecoder)
  | ⟨.extDecoder, 12⟩ => some (.dec teluguExtDecoder)
  | ⟨.extDecoder, 13⟩ => some (.dec urduExtDecoder)
  | _ => none

/-- The result of the generator given for a variable: `generateDefaultDecoder` and so on in charset.go:11, :43, :62,
otherwise the member `g` in the tables charset.go:169-228; `none` is a nil function, the call of which panics.
(The decoders from which the generators build encoders are among those that are never assigned.) -/
def generator : Var → Option Table
  | ⟨.decoder, 0⟩ => some (.dec (generateDecoderFromRunes defaultRunes))
  | ⟨.decoder, 1⟩ => some (.dec (generateDecoderFromRunes turkishRunes))
  | ⟨.decoder, 3⟩ => some (.dec (generateDecoderFromRunes portugueseRunes))
  | ⟨.encoder, 0⟩ => some (.enc (generateEncoderFromRunes defaultRunes))
  | ⟨.encoder, 1⟩ => some (.enc (generateEncoderFromRunes turkishRunes))
  | ⟨.encoder, 3⟩ => some (.enc (generateEncoderFromRunes portugueseRunes))
  | ⟨.encoder, 4⟩ => some (.enc (generateEncoder bengaliDecoder))
  | ⟨.encoder, 5⟩ => some (.enc (generateEncoder gujaratiDecoder))
  | ⟨.encoder, 6⟩ => some (.enc (generateEncoder hindiDecoder))
  | ⟨.encoder, 7⟩ => some (.enc (generateEncoder kannadaDecoder))
  | ⟨.encoder, 8⟩ => some (.enc (generateEncoder malayalamDecoder))
  | ⟨.encoder, 9⟩ => some (.enc (generateEncoder oriyaDecoder))
  | ⟨.encoder, 10⟩ => some (.enc (generateEncoder punjabiDecoder))
  | ⟨.encoder, 11⟩ => some (.enc (generateEncoder tamilDecoder))
  | ⟨.encoder, 12⟩ => some (.enc (generateEncoder teluguDecoder))
  | ⟨.encoder, 13⟩ => some (.enc (generateEncoder urduDecoder))
  | ⟨.extEncoder, 0⟩ => some (.enc (generateEncoder defaultExtDecoder))
  | ⟨.extEncoder, 1⟩ => some (.enc (generateEncoder turkishExtDecoder))
  | ⟨.extEncoder, 2⟩ => some (.enc (generateEncoder spanishExtDecoder))
  | ⟨.extEncoder, 3⟩ => some (.enc (generateEncoder portugueseExtDecoder))
  | ⟨.extEncoder, 4⟩ => some (.enc (generateEncoder bengaliExtDecoder))
  | ⟨.extEncoder, 5⟩ => some (.enc (generateEncoder gujaratiExtDecoder))
  | ⟨.extEncoder, 6⟩ => some (.enc (generateEncoder hindiExtDecoder))
  | ⟨.extEncoder, 7⟩ => some (.enc (generateEncoder kannadaExtDecoder))
  | ⟨.extEncoder, 8⟩ => some (.enc (generateEncoder malayalamExtDecoder))
  | ⟨.extEncoder, 9⟩ => some (.enc (generateEncoder oriyaExtDecoder))
  | ⟨.extEncoder, 10⟩ => some (.enc (generateEncoder punjabiExtDecoder))
  | ⟨.extEncoder, 11⟩ => some (.enc (generateEncoder tamilExtDecoder))
  | ⟨.extEncoder, 12⟩ => some (.enc (generateEncoder teluguExtDecoder))
  | ⟨.extEncoder, 13⟩ => some (.enc (generateEncoder urduExtDecoder))
  | _ => none

/-- The languages in the tables `decoder`, `extDecoder`, `encoder`, `extEncoder`, charset.go:169-228. -/
def listed : Kind → Int → Bool
  | .decoder, nli => nli = 1 ∨ (3 ≤ nli ∧ nli ≤ 13)
  | .extDecoder, nli => 1 ≤ nli ∧ nli ≤ 13
  | .encoder, nli => nli = 1 ∨ (3 ≤ nli ∧ nli ≤ 13)
  | .extEncoder, nli => 1 ≤ nli ∧ nli ≤ 13

/-- The variable used by `NewDecoder(nli)` and its like, charset.go:18, :34, :50, :69: that of the language when it
is listed, otherwise the one of the default function.  (The default functions themselves are those for `nli = 0`,
which is not listed.) -/
def var (k : Kind) (nli : Int) : Var := ⟨k, if listed k nli then nli.toNat else 0⟩

/-- Where a goroutine is. -/
inductive Thread where
  | idle
  /-- about to compare the variable with nil, charset.go:10, :19, :42, :51, :61, :70 -/
  | check (v : Var)
  /-- about to store the generated table, charset.go:11, :20, :43, :52, :62, :71 -/
  | store (v : Var) (t : Table)
  /-- about to read the variable to return it, charset.go:13, :22, :29, :35, :45, :54, :64, :73 -/
  | load (v : Var)
  /-- a nil function has been called -/
  | panicked
  deriving DecidableEq, Repr

/-- The variables and the goroutines. -/
structure State where
  mem : Var → Option Table
  threads : List Thread

/-- Assignment to a variable. -/
def assign (m : Var → Option Table) (v : Var) (t : Table) : Var → Option Table :=
  fun w => if w = v then some t else m w

/-- The first step of a call: `DefaultExtDecoder` and `NewExtDecoder` (charset.go:28-38) do not compare with nil. -/
def enter (k : Kind) (nli : Int) : Thread :=
  match k with
  | .extDecoder => .load (var k nli)
  | _ => .check (var k nli)

/-- What is observed: calls, accesses to variables, and results (`none` is nil). -/
inductive Event where
  | call (thread : Nat) (k : Kind) (nli : Int)
  | read (thread : Nat) (v : Var)
  | write (thread : Nat) (v : Var)
  | ret (thread : Nat) (r : Option Table)
  deriving DecidableEq, Repr

/-- After the comparison with nil: return the table, or generate it. -/
def checked (v : Var) : Option Table → Thread
  | some _ => .load v
  | none => match generator v with
    | some t => .store v t
    | none => .panicked

/-- One step of a goroutine.  An idle goroutine may call any of the functions at any time. -/
inductive Step : State → List Event → State → Prop
  | call (m) (before after : List Thread) (k : Kind) (nli : Int) :
      Step ⟨m, before ++ .idle :: after⟩ [.call before.length k nli] ⟨m, before ++ enter k nli :: after⟩
  | check (m) (before after : List Thread) (v : Var) :
      Step ⟨m, before ++ .check v :: after⟩ [.read before.length v] ⟨m, before ++ checked v (m v) :: after⟩
  | store (m) (before after : List Thread) (v : Var) (t : Table) :
      Step ⟨m, before ++ .store v t :: after⟩ [.write before.length v] ⟨assign m v t, before ++ .load v :: after⟩
  | load (m) (before after : List Thread) (v : Var) :
      Step ⟨m, before ++ .load v :: after⟩ [.read before.length v, .ret before.length (m v)] ⟨m, before ++ .idle :: after⟩

/-- `Exec m n h s`: `n` goroutines starting with the variables `m` may go through the events `h` to the state `s`. -/
inductive Exec (m : Var → Option Table) (n : Nat) : List Event → State → Prop
  | start : Exec m n [] ⟨m, List.replicate n .idle⟩
  | step {h s e s'} : Exec m n h s → Step s e s' → Exec m n (h ++ e) s'

end Verif.Model.Lazy
