import Verif.Model.Unicode
import Verif.Model.Charset

/-! Model of encoding/gsm7/gsm7.go. -/

namespace Verif.Model.Gsm7
open Unicode

/-- gsm7.go:15. -/
def esc : UInt8 := 0x1b
/-- gsm7.go:16. -/
def sp : UInt8 := 0x20

/-- `gsm7.Decoder`, gsm7.go:20-24. -/
structure Decoder where
  set : Charset.Decoder
  ext : Charset.Decoder
  strict : Bool

/-- `gsm7.Encoder`, gsm7.go:27-30. -/
structure Encoder where
  set : Charset.Encoder
  ext : Charset.Encoder

/-- Arguments of the option list of a decoder: `WithCharset`/`WithExtCharset` (gsm7.go:128-165; the last one
given wins), `WithoutExtCharset` and `Strict` (gsm7.go:167-190). -/
inductive Option' where
  | charset (nli : Int)
  | extCharset (nli : Int)
  | withoutExt
  | strict

/-- `applyDecoderOption`, gsm7.go:134-136, :148-150, :170-172, :178-180. -/
def applyDecoderOption (d : Decoder) : Option' → Decoder
  | .charset nli => { d with set := Charset.NewDecoder nli }
  | .extCharset nli => { d with ext := Charset.NewExtDecoder nli }
  | .withoutExt => { d with ext := [] }
  | .strict => { d with strict := true }

/-- `NewDecoder`, gsm7.go:43-55.  The zero `Decoder` is filled with the default tables first: an option
always stores a non-nil map, so the order of defaulting does not matter. -/
def NewDecoder (options : List Option') : Decoder :=
  options.foldl applyDecoderOption ⟨Charset.DefaultDecoder, Charset.DefaultExtDecoder, false⟩

/-- `applyEncoderOption`, gsm7.go:138-140, :152-154. (`withoutExt`, `strict` are decoder options.) -/
def applyEncoderOption (e : Encoder) : Option' → Encoder
  | .charset nli => { e with set := Charset.NewEncoder nli }
  | .extCharset nli => { e with ext := Charset.NewExtEncoder nli }
  | _ => e

/-- `NewEncoder`, gsm7.go:58-70. -/
def NewEncoder (options : List Option') : Encoder :=
  options.foldl applyEncoderOption ⟨Charset.DefaultEncoder, Charset.DefaultExtEncoder⟩

/-- `Decoder.WithExtCharset(nil)`, gsm7.go:199-202: looking up a nil map finds nothing. -/
def Decoder.WithoutExt (d : Decoder) : Decoder := { d with ext := [] }

/-- `Decoder.Strict`, gsm7.go:206-209. -/
def Decoder.Strict (d : Decoder) : Decoder := { d with strict := true }

/-- `Encoder.WithExtCharset(nil)`, gsm7.go:243-246. -/
def Encoder.WithoutExt (e : Encoder) : Encoder := { e with ext := [] }

/-- The loop of `Decoder.Decode`, gsm7.go:94-125; the flag is `escaped`; the output is consed in order. -/
def Decoder.loop (d : Decoder) : Bytes → Bool → M Bytes
  | [], escaped => .ok (if escaped then [sp] else [])
  | g :: src, true =>
    if g = esc then do
      let rest ← d.loop src false
      return sp :: rest
    else match d.ext.lookup g with
      | some m => do
        let rest ← d.loop src false
        return encodeRune m ++ rest
      | none =>
        if d.strict then fail (.gsm7InvalidSeptet g)
        else match d.set.lookup g with
          | some m => do
            let rest ← d.loop src false
            return encodeRune m ++ rest
          | none => do
            let rest ← d.loop src false
            return sp :: rest
  | g :: src, false =>
    if g = esc then d.loop src true
    else match d.set.lookup g with
      | some m => do
        let rest ← d.loop src false
        return encodeRune m ++ rest
      | none =>
        if d.strict then fail (.gsm7InvalidSeptet g)
        else do
          let rest ← d.loop src false
          return sp :: rest

/-- `Decoder.Decode`, gsm7.go:88-126. -/
def Decoder.Decode (d : Decoder) (src : Bytes) : M Bytes :=
  if src.length = 0 then .ok [] else d.loop src false

/-- `gsm7.Decode`, gsm7.go:73-76. -/
def Decode (src : Bytes) (options : List Option') : M Bytes := (NewDecoder options).Decode src

/-- The loop of `Encoder.Encode`, gsm7.go:220-232, over the runes of the string. -/
def Encoder.loop (e : Encoder) : List Rune → M Bytes
  | [] => .ok []
  | u :: us =>
    match e.set.lookup u with
    | some g => do
      let rest ← e.loop us
      return g :: rest
    | none =>
      match e.ext.lookup u with
      | some g => do
        let rest ← e.loop us
        return esc :: g :: rest
      | none => fail (.gsm7InvalidUTF8 u)

/-- `Encoder.Encode`, gsm7.go:215-234. -/
def Encoder.Encode (e : Encoder) (src : Bytes) : M Bytes :=
  if src.length = 0 then .ok [] else e.loop (decodeRunes src)

/-- `gsm7.Encode`, gsm7.go:82-85. -/
def Encode (src : Bytes) (options : List Option') : M Bytes := (NewEncoder options).Encode src

end Verif.Model.Gsm7
