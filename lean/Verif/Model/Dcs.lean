import Verif.Model.Prelude

/-! Model of encoding/tpdu/dcs.go and encoding/tpdu/parameterindicator.go. -/

namespace Verif.Model

/-- `tpdu.Alphabet`, dcs.go:15-30. Values outside the four constants are not modelled. -/
inductive Alphabet where
  | a7Bit | a8Bit | ucs2 | reserved
  deriving DecidableEq, Repr

/-- The integer value of an alphabet constant. -/
def Alphabet.toByte : Alphabet → UInt8
  | .a7Bit => 0
  | .a8Bit => 1
  | .ucs2 => 2
  | .reserved => 3

/-- Conversion `Alphabet(b)` of a two bit value. -/
def Alphabet.ofByte (b : UInt8) : Alphabet :=
  if b = 0 then .a7Bit else if b = 1 then .a8Bit else if b = 2 then .ucs2 else .reserved

namespace DCS

/-- `DCS.Alphabet`, dcs.go:35-55: the value and whether an error (`ErrInvalid`) is returned with it. -/
def Alphabet (d : UInt8) : Alphabet × Option Err :=
  if d &&& 0x80 = 0x00 then
    let alpha := Alphabet.ofByte ((d >>> 2) &&& 0x3)
    (if alpha = .reserved then .a7Bit else alpha, none)
  else if d &&& 0xe0 = 0xc0 then (.a7Bit, none)
  else if d &&& 0xf0 = 0xe0 then (.ucs2, none)
  else if d &&& 0xf0 = 0xf0 then
    (if d &&& 0x04 = 0x04 then .a8Bit else .a7Bit, none)
  else (.a7Bit, some .invalid)

/-- `DCS.WithAlphabet`, dcs.go:84-97. -/
def WithAlphabet (d : UInt8) (a : Model.Alphabet) : M UInt8 :=
  if d &&& 0x80 = 0x00 then .ok ((andNot d 0x0c) ||| (a.toByte <<< 2))
  else if d &&& 0xe0 = 0xc0 ∧ a = .a7Bit then .ok d
  else if d &&& 0xf0 = 0xe0 ∧ a = .ucs2 then .ok d
  else if d &&& 0xf0 = 0xf0 ∧ a.toByte ≤ 1 then .ok ((andNot d 0x0c) ||| (a.toByte <<< 2))
  else fail .invalid

/-- `DCS.WithAlphabet`, dcs.go:84-97, for every value of its argument, an `int`; `DCS(a)` keeps the low octet. -/
def WithAlphabetInt (d : UInt8) (a : Int) : M UInt8 :=
  if d &&& 0x80 = 0x00 then .ok ((andNot d 0x0c) ||| (byteOf a <<< 2))
  else if d &&& 0xe0 = 0xc0 ∧ a = 0 then .ok d
  else if d &&& 0xf0 = 0xe0 ∧ a = 2 then .ok d
  else if d &&& 0xf0 = 0xf0 ∧ a ≤ 1 then .ok ((andNot d 0x0c) ||| (byteOf a <<< 2))
  else fail .invalid

/-- `MClassUnknown`, dcs.go:125. -/
def MClassUnknown : UInt8 := 4

/-- `DCS.Class`, dcs.go:130-139: the class and whether an error is returned with it. -/
def Class (d : UInt8) : UInt8 × Option Err :=
  if d &&& 0x90 = 0x10 ∨ d &&& 0xf0 = 0xf0 then (d &&& 0x3, none)
  else if d &&& 0xe0 = 0xc0 ∨ d &&& 0xf0 = 0xe0 then (MClassUnknown, none)
  else (MClassUnknown, some .invalid)

/-- `DCS.WithClass`, dcs.go:146-155. The argument is `byte(c)`, as in the conversion `DCS(c)`. -/
def WithClass (d : UInt8) (c : UInt8) : M UInt8 :=
  if d &&& 0x80 = 0x00 then .ok ((andNot d 0x03) ||| 0x10 ||| c)
  else if d &&& 0xf0 = 0xf0 then .ok ((andNot d 0x03) ||| c)
  else fail .invalid

/-- `DCS.Compressed`, dcs.go:161-164. -/
def Compressed (d : UInt8) : Bool := d &&& 0xa0 = 0x20

/-- `Dcs8BitData`, dcs.go:101. -/
def Dcs8BitData : UInt8 := 0x04
/-- `DcsUCS2Data`, dcs.go:104. -/
def DcsUCS2Data : UInt8 := 0x08

end DCS

namespace PI

/-- `PiPID`, `PiDCS`, `PiUDL`, parameterindicator.go:48-54 (`1 << iota`). -/
def PiPID : UInt8 := 1
@[inherit_doc PiPID] def PiDCS : UInt8 := 2
@[inherit_doc PiPID] def PiUDL : UInt8 := 4

/-- `PI.PID`, parameterindicator.go:13-15. -/
def PID (p : UInt8) : Bool := p &&& PiPID ≠ 0
/-- `PI.DCS`, parameterindicator.go:18-20. -/
def DCS (p : UInt8) : Bool := p &&& PiDCS ≠ 0
/-- `PI.UDL`, parameterindicator.go:23-25. -/
def UDL (p : UInt8) : Bool := p &&& PiUDL ≠ 0

end PI
end Verif.Model
