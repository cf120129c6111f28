import Verif.Model.Prelude
import Verif.Model.CharsetData

/-! Model of encoding/gsm7/charset/charset.go.  Go maps are association lists with unique keys; the lazily
initialised global tables (charset.go:9-76) are modelled by their final values. -/

namespace Verif.Model.Charset
open CharsetData

/-- `charset.Decoder` = `map[byte]rune`, charset.go:79. -/
abbrev Decoder := List (UInt8 × Rune)

/-- `charset.Encoder` = `map[rune]byte`, charset.go:82. -/
abbrev Encoder := List (Rune × UInt8)

/-- Map assignment `m[k] = v`. -/
def insert {α β : Type} [BEq α] (m : List (α × β)) (k : α) (v : β) : List (α × β) :=
  (k, v) :: m.filter (fun e => !(e.1 == k))

/-- The body of the loop of `generateEncoder`, charset.go:130-134. -/
def genStep (e : Encoder) (kv : UInt8 × Rune) : Encoder :=
  match e.lookup kv.2 with
  | none => insert e kv.2 kv.1
  | some ko => if ko > kv.1 then insert e kv.2 kv.1 else e

/-- `generateEncoder`, charset.go:128-136.  Go iterates over the map in random order; the model takes the
entries in the order of the list given (see `Props.C12` for independence of the order). -/
def generateEncoder (d : Decoder) : Encoder := d.foldl genStep []

/-- `generateEncoderFromRunes`, charset.go:138-144. -/
def generateEncoderFromRunes (runes : List Rune) : Encoder :=
  (runes.zipIdx).foldl (fun e ri => insert e ri.1 (byteOf ri.2)) []

/-- `generateDecoderFromRunes`, charset.go:146-152. -/
def generateDecoderFromRunes (runes : List Rune) : Decoder :=
  (runes.zipIdx).foldl (fun d ri => insert d (byteOf ri.2) ri.1) []

/-- `DefaultDecoder`, charset.go:9-14, default.go:33-35. -/
def DefaultDecoder : Decoder := generateDecoderFromRunes defaultRunes

/-- `NewDecoder`, charset.go:17-25 with the table `decoder`, charset.go:169-183. -/
def NewDecoder (nli : Int) : Decoder :=
  match nli with
  | 1 => generateDecoderFromRunes turkishRunes
  | 3 => generateDecoderFromRunes portugueseRunes
  | 4 => bengaliDecoder
  | 5 => gujaratiDecoder
  | 6 => hindiDecoder
  | 7 => kannadaDecoder
  | 8 => malayalamDecoder
  | 9 => oriyaDecoder
  | 10 => punjabiDecoder
  | 11 => tamilDecoder
  | 12 => teluguDecoder
  | 13 => urduDecoder
  | _ => DefaultDecoder

/-- `DefaultExtDecoder`, charset.go:28-30. -/
def DefaultExtDecoder : Decoder := defaultExtDecoder

/-- `NewExtDecoder`, charset.go:33-38 with the table `extDecoder`, charset.go:184-198. -/
def NewExtDecoder (nli : Int) : Decoder :=
  match nli with
  | 1 => turkishExtDecoder
  | 2 => spanishExtDecoder
  | 3 => portugueseExtDecoder
  | 4 => bengaliExtDecoder
  | 5 => gujaratiExtDecoder
  | 6 => hindiExtDecoder
  | 7 => kannadaExtDecoder
  | 8 => malayalamExtDecoder
  | 9 => oriyaExtDecoder
  | 10 => punjabiExtDecoder
  | 11 => tamilExtDecoder
  | 12 => teluguExtDecoder
  | 13 => urduExtDecoder
  | _ => DefaultExtDecoder

/-- `DefaultEncoder`, charset.go:41-46, default.go:29-31. -/
def DefaultEncoder : Encoder := generateEncoderFromRunes defaultRunes

/-- `NewEncoder`, charset.go:49-57 with the table `encoder`, charset.go:199-213. -/
def NewEncoder (nli : Int) : Encoder :=
  match nli with
  | 1 => generateEncoderFromRunes turkishRunes
  | 3 => generateEncoderFromRunes portugueseRunes
  | 4 => generateEncoder bengaliDecoder
  | 5 => generateEncoder gujaratiDecoder
  | 6 => generateEncoder hindiDecoder
  | 7 => generateEncoder kannadaDecoder
  | 8 => generateEncoder malayalamDecoder
  | 9 => generateEncoder oriyaDecoder
  | 10 => generateEncoder punjabiDecoder
  | 11 => generateEncoder tamilDecoder
  | 12 => generateEncoder teluguDecoder
  | 13 => generateEncoder urduDecoder
  | _ => DefaultEncoder

/-- `DefaultExtEncoder`, charset.go:60-65, default.go:37-39. -/
def DefaultExtEncoder : Encoder := generateEncoder defaultExtDecoder

/-- `NewExtEncoder`, charset.go:68-76 with the table `extEncoder`, charset.go:214-228. -/
def NewExtEncoder (nli : Int) : Encoder :=
  match nli with
  | 1 => generateEncoder turkishExtDecoder
  | 2 => generateEncoder spanishExtDecoder
  | 3 => generateEncoder portugueseExtDecoder
  | 4 => generateEncoder bengaliExtDecoder
  | 5 => generateEncoder gujaratiExtDecoder
  | 6 => generateEncoder hindiExtDecoder
  | 7 => generateEncoder kannadaExtDecoder
  | 8 => generateEncoder malayalamExtDecoder
  | 9 => generateEncoder oriyaExtDecoder
  | 10 => generateEncoder punjabiExtDecoder
  | 11 => generateEncoder tamilExtDecoder
  | 12 => generateEncoder teluguExtDecoder
  | 13 => generateEncoder urduExtDecoder
  | _ => DefaultExtEncoder

end Verif.Model.Charset
