import Verif.Model.Gsm7

/-! Model of the methods of encoding/gsm7/gsm7.go by which a caller supplies character tables of their own.  The tables
are maps from and to runes. -/

namespace Verif.Model.Gsm7

/-- `Decoder.WithCharset`, gsm7.go:193-196. -/
def Decoder.WithCharset (d : Decoder) (set : Charset.Decoder) : Decoder := { d with set := set }

/-- `Decoder.WithExtCharset`, gsm7.go:199-202. -/
def Decoder.WithExtCharset (d : Decoder) (ext : Charset.Decoder) : Decoder := { d with ext := ext }

/-- `Encoder.WithCharset`, gsm7.go:237-240. -/
def Encoder.WithCharset (e : Encoder) (set : Charset.Encoder) : Encoder := { e with set := set }

/-- `Encoder.WithExtCharset`, gsm7.go:243-246. -/
def Encoder.WithExtCharset (e : Encoder) (ext : Charset.Encoder) : Encoder := { e with ext := ext }

end Verif.Model.Gsm7
