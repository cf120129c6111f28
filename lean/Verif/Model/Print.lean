import Verif.Model.Collector
import Verif.Model.Flags

/-!
Model of the `String` methods of encoding/tpdu, and of the parts of packages fmt, time, strings and encoding/hex
that print.  Those packages are not part of /repo; they are modelled from their documentation.  Strings are
sequences of octets.
-/

namespace Verif.Model

open Lean in
/-- `b!"..."` is the list of the octets of an ASCII string. -/
macro:max "b!" s:str : term => do
  let cs := s.getString.toList.toArray.map fun c => Syntax.mkNumLit (toString c.toNat)
  `(([$(cs),*] : List UInt8))

/-- `%t`. -/
def showBool (b : Bool) : Bytes := if b then b!"true" else b!"false"

/-- A number in decimal, with zeros in front up to the width (`appendInt` of package time). -/
def padDecimal (width n : Nat) : Bytes :=
  List.replicate (width - (decimal n).length) 0x30 ++ decimal n

/-- `strings.Join`. -/
def joinWith (sep : Bytes) : List Bytes → Bytes
  | [] => []
  | [x] => x
  | x :: y :: xs => x ++ sep ++ joinWith sep (y :: xs)

/-- `%v` of a slice of bytes: the octets in decimal. -/
def showBytes (b : Bytes) : Bytes := b!"[" ++ joinWith b!" " (b.map fun o => decimal o.toNat) ++ b!"]"

/-- `strings.Split(s, "\n")`. -/
def splitLF : Bytes → List Bytes
  | [] => [[]]
  | c :: cs =>
    if c = 0x0a then [] :: splitLF cs
    else match splitLF cs with
      | [] => [[c]]
      | l :: ls => (c :: l) :: ls

/-- White space of ASCII. -/
def isSpace (c : UInt8) : Bool := (0x09 ≤ c ∧ c ≤ 0x0d) ∨ c = 0x20

/-- `strings.TrimSpace` of a string of ASCII characters. -/
def trimSpace (s : Bytes) : Bytes := ((s.dropWhile isSpace).reverse.dropWhile isSpace).reverse

namespace Hex

/-- The character shown for an octet by `hex.Dump`. -/
def toChar (b : UInt8) : UInt8 := if b < 32 ∨ b > 126 then 0x2e else b

/-- The spaces after column `i`: one, and one more after the columns 7 and 15. -/
def gap (i : Nat) : Bytes := if i = 7 ∨ i = 15 then b!"  " else b!" "

/-- The columns from `i` on of a row of `hex.Dump`; `n` is the number of columns left. -/
def cells : Nat → Nat → Bytes → Bytes
  | 0, _, _ => []
  | n + 1, i, [] => b!"  " ++ gap i ++ cells n (i + 1) []
  | n + 1, i, b :: bs => hex02 b ++ gap i ++ cells n (i + 1) bs

/-- The offset of a row, `%08x`. -/
def hex08 (n : Nat) : Bytes :=
  hex02 (UInt8.ofNat (n / 0x1000000)) ++ hex02 (UInt8.ofNat (n / 0x10000)) ++ hex02 (UInt8.ofNat (n / 0x100)) ++
    hex02 (UInt8.ofNat n)

/-- A row of `hex.Dump` without its end of line. -/
def dumpRow (off : Nat) (row : Bytes) : Bytes :=
  hex08 off ++ b!"  " ++ cells 16 0 row ++ b!"|" ++ row.map toChar ++ b!"|"

/-- The rows of `hex.Dump` from an offset on.  The fuel is the number of octets, which is at least the number of
rows. -/
def dumpRows : Nat → Nat → Bytes → Bytes
  | 0, _, _ => []
  | _ + 1, _, [] => []
  | fuel + 1, off, b => dumpRow off (b.take 16) ++ b!"\n" ++ dumpRows fuel (off + 16) (b.drop 16)

/-- `hex.Dump`. -/
def Dump (b : Bytes) : Bytes := dumpRows b.length 0 b

end Hex

/-- `MessageType.String`, tpdu.go:1002-1013. -/
def MessageType.String (mti : UInt8) : Bytes :=
  if mti = 0 then b!"Deliver" else if mti = 1 then b!"Submit" else if mti = 2 then b!"Command" else b!"Unknown"

/-- `SmsType.MTI`, tpdu.go:1056-1058. -/
def SmsType.MTI (st : UInt8) : UInt8 := st >>> 1

/-- `SmsType.String`, tpdu.go:1065-1082. -/
def SmsType.String (st : UInt8) : Bytes :=
  if st = SmsDeliver then b!"SmsDeliver"
  else if st = SmsDeliverReport then b!"SmsDeliverReport"
  else if st = SmsSubmitReport then b!"SmsSubmitReport"
  else if st = SmsSubmit then b!"SmsSubmit"
  else if st = SmsStatusReport then b!"SmsStatusReport"
  else if st = SmsCommand then b!"SmsCommand"
  else b!"Unknown"

/-- `ValidityPeriodFormat.String`, validityperiod.go:246-259. -/
def ValidityPeriodFormat.String (vpf : UInt8) : Bytes :=
  if vpf = VpfNotPresent then b!"Not Present"
  else if vpf = VpfAbsolute then b!"Absolute"
  else if vpf = VpfRelative then b!"Relative"
  else if vpf = VpfEnhanced then b!"Enhanced"
  else b!"Unknown"

/-- `EnhancedValidityPeriodFormat.String`, validityperiod.go:261-274. -/
def EnhancedValidityPeriodFormat.String (evpf : UInt8) : Bytes :=
  if evpf = EvpfNotPresent then b!"Not Present"
  else if evpf = EvpfRelative then b!"Relative"
  else if evpf = EvpfRelativeSeconds then b!"Relative Seconds"
  else if evpf = EvpfRelativeHHMMSS then b!"Relative HHMMSS"
  else b!"Unknown"

/-- `EnhancedFormat`, validityperiod.go:23-25. -/
def EnhancedFormat (efi : UInt8) : UInt8 := efi &&& 0x07

/-- `DCS.String`, dcs.go:63-78.  `DCS.Alphabet` never returns the reserved alphabet. -/
def DCS.String (d : UInt8) : Bytes :=
  let str := b!"0x" ++ hex02 d
  match DCS.Alphabet d with
  | (_, some _) => str
  | (.a7Bit, none) => str ++ b!" 7bit"
  | (.a8Bit, none) => str ++ b!" 8bit"
  | (.ucs2, none) => str ++ b!" UCS-2"
  | (.reserved, none) => str

/-- `PI.String`, parameterindicator.go:27-42. -/
def PI.String (p : UInt8) : Bytes :=
  if p = 0 then b!"0"
  else joinWith b!"|" ((if PI.PID p then [b!"PID"] else []) ++ (if PI.DCS p then [b!"DCS"] else []) ++
    (if PI.UDL p then [b!"UDL"] else []))

/-- `-0700` of `Time.Format`: the offset in hours and minutes. -/
def showZone (off : Int) : Bytes :=
  let zone := off.tdiv 60
  (if zone < 0 then b!"-" else b!"+") ++ padDecimal 2 (zone.natAbs / 60) ++ padDecimal 2 (zone.natAbs % 60)

/-- `2006` of `Time.Format`. -/
def showYear (y : Int) : Bytes := (if y < 0 then b!"-" else []) ++ padDecimal 4 y.natAbs

/-- `Timestamp.String`, timestamp.go:19-21: `t.Format("2006-01-02 15:04:05 -0700")`. -/
def Timestamp.String (t : GoTime) : Bytes :=
  showYear t.Year ++ b!"-" ++ padDecimal 2 t.Month.toNat ++ b!"-" ++ padDecimal 2 t.Day.toNat ++ b!" " ++
    padDecimal 2 t.Hour.toNat ++ b!":" ++ padDecimal 2 t.Minute.toNat ++ b!":" ++ padDecimal 2 t.Second.toNat ++ b!" " ++
    showZone t.off

/-- `Duration.String` for whole seconds: fractions of a second are not modelled (a duration that was unmarshalled
has none). -/
def Duration.String (d : Int) : Bytes :=
  let u := d.natAbs / 1000000000
  (if d < 0 then b!"-" else []) ++
    (if u / 3600 > 0 then decimal (u / 3600) ++ b!"h" else []) ++
    (if u / 60 > 0 then decimal (u / 60 % 60) ++ b!"m" else []) ++
    decimal (u % 60) ++ b!"s"

end Verif.Model
