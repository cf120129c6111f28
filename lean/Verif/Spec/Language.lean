import Verif.Model.UserData

/-! National language tables and their selection. -/

namespace Verif.Spec
open Verif.Model

/-- A choice of tables; `none` is the default locking or shift table. -/
structure Lang where
  locking : Option Int
  shift : Option Int
  deriving DecidableEq

/-- The default alphabet. -/
def Lang.default : Lang := ⟨none, none⟩

/-- Every character of the text has a septet in the locking table or in the shift table. -/
def Representable (L : Lang) (text : List UInt8) : Prop :=
  ∀ r ∈ Unicode.decodeRunes text,
    (∃ g, (g, r) ∈ Charset.NewDecoder (L.locking.getD 0)) ∨ (∃ g, (g, r) ∈ Charset.NewExtDecoder (L.shift.getD 0))

/-- The information elements that announce the tables: one per non-default table, holding the language
identifier.  In the code 25 is the national language locking shift, 24 the single shift; the standard has 0x25
and 0x24 (C95). -/
def Lang.header (L : Lang) : List IE :=
  (L.locking.toList.map fun n => ⟨25, [byteOf n]⟩) ++ (L.shift.toList.map fun n => ⟨24, [byteOf n]⟩)

/-- The order in which tables are considered: locking tables with the default shift table, shift tables with
the default locking table, and both tables of one language. -/
def choices (locking shift : List Int) : List Lang :=
  (locking.map fun n => ⟨some n, none⟩) ++ (shift.map fun n => ⟨none, some n⟩) ++
  (locking.flatMap fun n => (shift.filter fun m => n = m).map fun _ => ⟨some n, some n⟩)

/-- The languages an option offers. -/
def offersLocking : CharsetOpt → List Int
  | .charset n => n
  | .locking n => n
  | .shift _ => []
  | .all => [1, 2, 3, 4, 5, 6, 7, 8, 9, 10, 11, 12, 13]
@[inherit_doc offersLocking] def offersShift : CharsetOpt → List Int
  | .charset n => n
  | .locking _ => []
  | .shift n => n
  | .all => [1, 2, 3, 4, 5, 6, 7, 8, 9, 10, 11, 12, 13]

/-- The options from the last `WithAllCharsets` on (it discards what earlier options offered to an encoder). -/
def sinceAll : List CharsetOpt → List CharsetOpt
  | [] => []
  | o :: os => if .all ∈ os then sinceAll os else o :: os

/-- The languages offered to an encoder by a list of options, in order. -/
def offeredLocking (options : List CharsetOpt) : List Int := (sinceAll options).flatMap offersLocking
@[inherit_doc offeredLocking] def offeredShift (options : List CharsetOpt) : List Int :=
  (sinceAll options).flatMap offersShift

/-- The tables considered for a list of encoder options, in order. -/
def offered (options : List CharsetOpt) : List Lang := choices (offeredLocking options) (offeredShift options)

/-- The text can be sent in septets with the tables offered. -/
def InSeptets (options : List CharsetOpt) (text : List UInt8) : Prop :=
  Representable .default text ∨ ∃ L ∈ offered options, Representable L text

/-- The alphabet used for a text: that of the data coding scheme when it is 8-bit or UCS-2, otherwise septets
when they can represent the text, otherwise UCS-2. -/
inductive Chosen (dcs : UInt8) (options : List CharsetOpt) (text : List UInt8) : Alphabet → Prop
  | octets : (DCS.Alphabet dcs).1 = .a8Bit → Chosen dcs options text .a8Bit
  | ucs2 : (DCS.Alphabet dcs).1 = .ucs2 → Chosen dcs options text .ucs2
  | septets : (DCS.Alphabet dcs).1 = .a7Bit → InSeptets options text → Chosen dcs options text .a7Bit
  | fallback : (DCS.Alphabet dcs).1 = .a7Bit → ¬ InSeptets options text → Chosen dcs options text .ucs2

/-- The languages a decoder may use: all of them when there are no options. -/
def permitsLocking (options : List CharsetOpt) (n : Int) : Prop :=
  options = [] ∧ 1 ≤ n ∧ n ≤ 13 ∨ ∃ o ∈ options, n ∈ offersLocking o
@[inherit_doc permitsLocking] def permitsShift (options : List CharsetOpt) (n : Int) : Prop :=
  options = [] ∧ 1 ≤ n ∧ n ≤ 13 ∨ ∃ o ∈ options, n ∈ offersShift o

/-- The decoder options permit every existing language that the encoder options offer. -/
def Matching (eopts dopts : List CharsetOpt) : Prop :=
  ∀ n : Int, 1 ≤ n → n ≤ 13 →
    (n ∈ offeredLocking eopts → permitsLocking dopts n) ∧ (n ∈ offeredShift eopts → permitsShift dopts n)

end Verif.Spec
