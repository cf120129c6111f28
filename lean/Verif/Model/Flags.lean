import Verif.Model.Tpdu

/-! Model of the flags in encoding/tpdu/firstoctet.go that nothing else in the library reads, and of the
remaining small getters of encoding/tpdu/tpdu.go. -/

namespace Verif.Model
namespace FirstOctet

/-- Bit masks, firstoctet.go:83-127. -/
def FoMMS : UInt8 := 0x4
@[inherit_doc FoMMS] def FoRD : UInt8 := 0x4
@[inherit_doc FoMMS] def FoLP : UInt8 := 0x8
@[inherit_doc FoMMS] def FoSRI : UInt8 := 0x20
@[inherit_doc FoMMS] def FoSRR : UInt8 := 0x20
@[inherit_doc FoMMS] def FoSRQ : UInt8 := 0x20
@[inherit_doc FoMMS] def FoRP : UInt8 := 0x80

/-- `FirstOctet.LP`, firstoctet.go:11-13. -/
def LP (f : UInt8) : Bool := f &&& FoLP ≠ 0
/-- `FirstOctet.MMS`, firstoctet.go:16-18. -/
def MMS (f : UInt8) : Bool := f &&& FoMMS ≠ 0
/-- `FirstOctet.RD`, firstoctet.go:26-28. -/
def RD (f : UInt8) : Bool := f &&& FoRD ≠ 0
/-- `FirstOctet.RP`, firstoctet.go:31-33. -/
def RP (f : UInt8) : Bool := f &&& FoRP ≠ 0
/-- `FirstOctet.SRI`, firstoctet.go:36-38. -/
def SRI (f : UInt8) : Bool := f &&& FoSRI ≠ 0
/-- `FirstOctet.SRR`, firstoctet.go:41-43. -/
def SRR (f : UInt8) : Bool := f &&& FoSRR ≠ 0
/-- `FirstOctet.SRQ`, firstoctet.go:46-48. -/
def SRQ (f : UInt8) : Bool := f &&& FoSRQ ≠ 0

end FirstOctet

/-- `TPDU.MTI`, tpdu.go:158-160. -/
def TPDU.MTI (t : TPDU) : UInt8 := FirstOctet.MTI t.FirstOctet

/-- `TPDU.IsSingleSegment`, tpdu.go:152-155. -/
def TPDU.IsSingleSegment (t : TPDU) : Bool := t.ConcatInfo.isNone

end Verif.Model
