import Verif.Model.Cmd
import Verif.Model.Counter

/-!
The test tables of /repo, evaluated in the model.  Generated by tools/gen_vectors.py; do not edit.  These are
tests of the model's faithfulness: no claim of the manifest rests on them.
-/

namespace Verif.Vectors
open Verif.Model

/-! encoding/bcd/bcd_test.go, TestDecode. -/

-- zero
example : Bcd.Decode 0 = .ok (0) := by decide +kernel
-- thirteen
example : Bcd.Decode 49 = .ok (13) := by decide +kernel
-- thirty one
example : Bcd.Decode 19 = .ok (31) := by decide +kernel
-- ninety nine
example : Bcd.Decode 153 = .ok (99) := by decide +kernel
-- a9
example : Bcd.Decode 169 = .error (.err (.bcdInvalidOctet 169)) := by decide +kernel
-- 9a
example : Bcd.Decode 154 = .error (.err (.bcdInvalidOctet 154)) := by decide +kernel
-- ff
example : Bcd.Decode 255 = .error (.err (.bcdInvalidOctet 255)) := by decide +kernel

/-! encoding/bcd/bcd_test.go, TestDecodeSigned. -/

-- zero
example : Bcd.DecodeSigned 0 = .ok (0) := by decide +kernel
-- thirteen
example : Bcd.DecodeSigned 49 = .ok (13) := by decide +kernel
-- thirty one
example : Bcd.DecodeSigned 19 = .ok (31) := by decide +kernel
-- seventy nine
example : Bcd.DecodeSigned 151 = .ok (79) := by decide +kernel
-- negative zero
example : Bcd.DecodeSigned 8 = .ok (0) := by decide +kernel
-- negative one
example : Bcd.DecodeSigned 24 = .ok (-1) := by decide +kernel
-- negative 19
example : Bcd.DecodeSigned 153 = .ok (-19) := by decide +kernel
-- a9
example : Bcd.DecodeSigned 169 = .error (.err (.bcdInvalidOctet 169)) := by decide +kernel
-- negative 29
example : Bcd.DecodeSigned 154 = .ok (-29) := by decide +kernel
-- negative 79
example : Bcd.DecodeSigned 159 = .ok (-79) := by decide +kernel
-- ff
example : Bcd.DecodeSigned 255 = .error (.err (.bcdInvalidOctet 255)) := by decide +kernel

/-! encoding/bcd/bcd_test.go, TestEncode. -/

-- zero
example : Bcd.Encode (0) = .ok 0 := by decide +kernel
-- thirteen
example : Bcd.Encode (13) = .ok 49 := by decide +kernel
-- thirty one
example : Bcd.Encode (31) = .ok 19 := by decide +kernel
-- ninety nine
example : Bcd.Encode (99) = .ok 153 := by decide +kernel
-- negative
example : Bcd.Encode (-1) = .error (.err (.bcdInvalidInteger (-1))) := by decide +kernel
-- hundred
example : Bcd.Encode (100) = .error (.err (.bcdInvalidInteger (100))) := by decide +kernel
-- a9
example : Bcd.Encode (169) = .error (.err (.bcdInvalidInteger (169))) := by decide +kernel
-- 9a
example : Bcd.Encode (154) = .error (.err (.bcdInvalidInteger (154))) := by decide +kernel
-- ff
example : Bcd.Encode (255) = .error (.err (.bcdInvalidInteger (255))) := by decide +kernel

/-! encoding/bcd/bcd_test.go, TestEncodeSigned. -/

-- zero
example : Bcd.EncodeSigned (0) = .ok 0 := by decide +kernel
-- thirteen
example : Bcd.EncodeSigned (13) = .ok 49 := by decide +kernel
-- thirty one
example : Bcd.EncodeSigned (31) = .ok 19 := by decide +kernel
-- seventy nine
example : Bcd.EncodeSigned (79) = .ok 151 := by decide +kernel
-- negative one
example : Bcd.EncodeSigned (-1) = .ok 24 := by decide +kernel
-- negative 19
example : Bcd.EncodeSigned (-19) = .ok 153 := by decide +kernel
-- a9
example : Bcd.EncodeSigned (169) = .error (.err (.bcdInvalidInteger (169))) := by decide +kernel
-- negative 29
example : Bcd.EncodeSigned (-29) = .ok 154 := by decide +kernel
-- negative 79
example : Bcd.EncodeSigned (-79) = .ok 159 := by decide +kernel
-- ff
example : Bcd.EncodeSigned (255) = .error (.err (.bcdInvalidInteger (255))) := by decide +kernel

/-! encoding/semioctet/semioctet_test.go, TestDecode. -/

-- nil
example : Semioctet.Decode 0 [] = .ok ⟨.ok [], 0⟩ := by decide +kernel
-- nil dst
example : Semioctet.Decode 0 [16,50,84,118] = .ok ⟨.ok [], 0⟩ := by decide +kernel
-- nil src
example : Semioctet.Decode 3 [] = .ok ⟨.ok [], 0⟩ := by decide +kernel
-- empty dst
example : Semioctet.Decode 0 [16,50,84,118] = .ok ⟨.ok [], 0⟩ := by decide +kernel
-- empty src
example : Semioctet.Decode 3 [] = .ok ⟨.ok [], 0⟩ := by decide +kernel
-- limit src
example : Semioctet.Decode 8 [16,50,84,118] = .ok ⟨.ok [48,49,50,51,52,53,54,55], 4⟩ := by decide +kernel
-- fill limit src
example : Semioctet.Decode 8 [16,50,84,246] = .ok ⟨.ok [48,49,50,51,52,53,54], 4⟩ := by decide +kernel
-- fill limit even dst
example : Semioctet.Decode 6 [16,50,84,246,152] = .ok ⟨.ok [48,49,50,51,52,53], 3⟩ := by decide +kernel
-- no fill limit even dst
example : Semioctet.Decode 6 [16,50,84,118,152] = .ok ⟨.ok [48,49,50,51,52,53], 3⟩ := by decide +kernel
-- fill limit odd dst
example : Semioctet.Decode 5 [16,50,244,118] = .ok ⟨.ok [48,49,50,51,52], 3⟩ := by decide +kernel
-- alphabet
example : Semioctet.Decode 15 [16,50,84,118,152,186,220,254] = .ok ⟨.ok [48,49,50,51,52,53,54,55,56,57,42,35,97,98,99], 8⟩ := by decide +kernel
-- no fill limit even dst
example : Semioctet.Decode 6 [16,50,84,118,152] = .ok ⟨.ok [48,49,50,51,52,53], 3⟩ := by decide +kernel
-- no fill limit odd dst
example : Semioctet.Decode 5 [16,50,84,118] = .ok ⟨.error .semiMissingFill, 3⟩ := by decide +kernel
-- skip inter fill
example : Semioctet.Decode 10 [16,50,244,118,248] = .ok ⟨.ok [48,49,50,51,52,54,55,56], 5⟩ := by decide +kernel

/-! encoding/semioctet/semioctet_test.go, TestEncode. -/

-- nil
example : Semioctet.Encode [] = .ok [] := by decide +kernel
-- empty src
example : Semioctet.Encode [] = .ok [] := by decide +kernel
-- even src
example : Semioctet.Encode [48,49,50,51,52,53,54,55] = .ok [16,50,84,118] := by decide +kernel
-- odd src
example : Semioctet.Encode [48,49,50,51,52,53,54] = .ok [16,50,84,246] := by decide +kernel
-- alphabet
example : Semioctet.Encode [48,49,50,51,52,53,54,55,56,57,42,35,97,98,99] = .ok [16,50,84,118,152,186,220,254] := by decide +kernel
-- invalid digit
example : Semioctet.Encode [48,49,50,51,52,53,68,54,55,56,57] = .error (.err (.semiInvalidDigit 68)) := by decide +kernel

/-! encoding/gsm7/7bit_test.go, testPatterns. -/

-- nil
example : Gsm7.Unpack7Bit [] 0 = [] := by decide +kernel
-- nil
example : Gsm7.Pack7Bit [] 0 = [] := by decide +kernel
-- empty
example : Gsm7.Unpack7Bit [] 0 = [] := by decide +kernel
-- empty
example : Gsm7.Pack7Bit [] 0 = [] := by decide +kernel
-- empty fill
example : Gsm7.Unpack7Bit [] 1 = [] := by decide +kernel
-- empty fill
example : Gsm7.Pack7Bit [] 1 = [] := by decide +kernel
-- cr
example : Gsm7.Unpack7Bit [13] 0 = [13] := by decide +kernel
-- cr
example : Gsm7.Pack7Bit [13] 0 = [13] := by decide +kernel
-- one
example : Gsm7.Unpack7Bit [49] 0 = [49] := by decide +kernel
-- one
example : Gsm7.Pack7Bit [49] 0 = [49] := by decide +kernel
-- two
example : Gsm7.Unpack7Bit [48,25] 0 = [48,50] := by decide +kernel
-- two
example : Gsm7.Pack7Bit [48,50] 0 = [48,25] := by decide +kernel
-- message
example : Gsm7.Unpack7Bit [237,242,124,30,62,151,1] 0 = [109,101,115,115,97,103,101,0] := by decide +kernel
-- message
example : Gsm7.Pack7Bit [109,101,115,115,97,103,101,0] 0 = [237,242,124,30,62,151,1] := by decide +kernel
-- seven
example : Gsm7.Unpack7Bit [240,48,157,94,150,187,1] 0 = [112,97,116,116,101,114,110,0] := by decide +kernel
-- seven
example : Gsm7.Pack7Bit [112,97,116,116,101,114,110,0] 0 = [240,48,157,94,150,187,1] := by decide +kernel
-- eight
example : Gsm7.Unpack7Bit [240,48,157,94,150,187,127] 0 = [112,97,116,116,101,114,110,63] := by decide +kernel
-- eight
example : Gsm7.Pack7Bit [112,97,116,116,101,114,110,63] 0 = [240,48,157,94,150,187,127] := by decide +kernel
-- nine
example : Gsm7.Unpack7Bit [240,48,157,94,150,187,67,33] 0 = [112,97,116,116,101,114,110,33,33] := by decide +kernel
-- nine
example : Gsm7.Pack7Bit [112,97,116,116,101,114,110,33,33] 0 = [240,48,157,94,150,187,67,33] := by decide +kernel
-- long
example : Gsm7.Unpack7Bit [97,144,189,44,207,131,216,111,247,25,68,47,207,233,32,120,152,78,47,203,221] 0 = [97,32,118,101,114,121,32,108,111,110,103,32,116,101,115,116,32,112,97,116,116,101,114,110] := by decide +kernel
-- long
example : Gsm7.Pack7Bit [97,32,118,101,114,121,32,108,111,110,103,32,116,101,115,116,32,112,97,116,116,101,114,110] 0 = [97,144,189,44,207,131,216,111,247,25,68,47,207,233,32,120,152,78,47,203,221] := by decide +kernel
-- filler
example : Gsm7.Unpack7Bit [230,52,155,93,150,255,0] 0 = [102,105,108,108,101,114,63,0] := by decide +kernel
-- filler
example : Gsm7.Pack7Bit [102,105,108,108,101,114,63,0] 0 = [230,52,155,93,150,255,0] := by decide +kernel
-- fill1
example : Gsm7.Unpack7Bit [254] 1 = [127] := by decide +kernel
-- fill1
example : Gsm7.Pack7Bit [127] 1 = [254] := by decide +kernel
-- fill2
example : Gsm7.Unpack7Bit [252,1] 2 = [127,0] := by decide +kernel
-- fill2
example : Gsm7.Pack7Bit [127,0] 2 = [252,1] := by decide +kernel
-- fill3
example : Gsm7.Unpack7Bit [248,3] 3 = [127] := by decide +kernel
-- fill3
example : Gsm7.Pack7Bit [127] 3 = [248,3] := by decide +kernel
-- fill4
example : Gsm7.Unpack7Bit [240,7] 4 = [127] := by decide +kernel
-- fill4
example : Gsm7.Pack7Bit [127] 4 = [240,7] := by decide +kernel
-- fill5
example : Gsm7.Unpack7Bit [224,15] 5 = [127] := by decide +kernel
-- fill5
example : Gsm7.Pack7Bit [127] 5 = [224,15] := by decide +kernel
-- fill6
example : Gsm7.Unpack7Bit [192,31] 6 = [127] := by decide +kernel
-- fill6
example : Gsm7.Pack7Bit [127] 6 = [192,31] := by decide +kernel

/-! encoding/gsm7/7bit_test.go, ussdTestPatterns. -/

-- nil
example : Gsm7.Unpack7BitUSSD [] 0 = .ok [] := by decide +kernel
-- nil
example : Gsm7.Pack7BitUSSD [] 0 = .ok [] := by decide +kernel
-- empty
example : Gsm7.Unpack7BitUSSD [] 0 = .ok [] := by decide +kernel
-- empty
example : Gsm7.Pack7BitUSSD [] 0 = .ok [] := by decide +kernel
-- cr
example : Gsm7.Unpack7BitUSSD [13] 0 = .ok [13] := by decide +kernel
-- cr
example : Gsm7.Pack7BitUSSD [13] 0 = .ok [13] := by decide +kernel
-- one
example : Gsm7.Unpack7BitUSSD [49] 0 = .ok [49] := by decide +kernel
-- one
example : Gsm7.Pack7BitUSSD [49] 0 = .ok [49] := by decide +kernel
-- two
example : Gsm7.Unpack7BitUSSD [48,25] 0 = .ok [48,50] := by decide +kernel
-- two
example : Gsm7.Pack7BitUSSD [48,50] 0 = .ok [48,25] := by decide +kernel
-- message0
example : Gsm7.Unpack7BitUSSD [237,242,124,30,62,151,1] 0 = .ok [109,101,115,115,97,103,101,0] := by decide +kernel
-- message0
example : Gsm7.Pack7BitUSSD [109,101,115,115,97,103,101,0] 0 = .ok [237,242,124,30,62,151,1] := by decide +kernel
-- message
example : Gsm7.Unpack7BitUSSD [237,242,124,30,62,151,27] 0 = .ok [109,101,115,115,97,103,101] := by decide +kernel
-- message
example : Gsm7.Pack7BitUSSD [109,101,115,115,97,103,101] 0 = .ok [237,242,124,30,62,151,27] := by decide +kernel
-- seven
example : Gsm7.Unpack7BitUSSD [240,48,157,94,150,187,27] 0 = .ok [112,97,116,116,101,114,110] := by decide +kernel
-- seven
example : Gsm7.Pack7BitUSSD [112,97,116,116,101,114,110] 0 = .ok [240,48,157,94,150,187,27] := by decide +kernel
-- eight
example : Gsm7.Unpack7BitUSSD [240,48,157,94,150,187,127] 0 = .ok [112,97,116,116,101,114,110,63] := by decide +kernel
-- eight
example : Gsm7.Pack7BitUSSD [112,97,116,116,101,114,110,63] 0 = .ok [240,48,157,94,150,187,127] := by decide +kernel
-- nine
example : Gsm7.Unpack7BitUSSD [240,48,157,94,150,187,67,33] 0 = .ok [112,97,116,116,101,114,110,33,33] := by decide +kernel
-- nine
example : Gsm7.Pack7BitUSSD [112,97,116,116,101,114,110,33,33] 0 = .ok [240,48,157,94,150,187,67,33] := by decide +kernel
-- long
example : Gsm7.Unpack7BitUSSD [97,144,189,44,207,131,216,111,247,25,68,47,207,233,32,120,152,78,47,203,221] 0 = .ok [97,32,118,101,114,121,32,108,111,110,103,32,116,101,115,116,32,112,97,116,116,101,114,110] := by decide +kernel
-- long
example : Gsm7.Pack7BitUSSD [97,32,118,101,114,121,32,108,111,110,103,32,116,101,115,116,32,112,97,116,116,101,114,110] 0 = .ok [97,144,189,44,207,131,216,111,247,25,68,47,207,233,32,120,152,78,47,203,221] := by decide +kernel
-- octet cr
example : Gsm7.Unpack7BitUSSD [240,48,157,94,150,187,27,13] 0 = .ok [112,97,116,116,101,114,110,13] := by decide +kernel
-- octet cr
example : Gsm7.Pack7BitUSSD [112,97,116,116,101,114,110,13] 0 = .ok [240,48,157,94,150,187,27,13] := by decide +kernel
-- filler
example : Gsm7.Unpack7BitUSSD [230,52,155,93,150,255,26] 0 = .ok [102,105,108,108,101,114,63] := by decide +kernel
-- filler
example : Gsm7.Pack7BitUSSD [102,105,108,108,101,114,63] 0 = .ok [230,52,155,93,150,255,26] := by decide +kernel
-- null filler
example : Gsm7.Unpack7BitUSSD [230,52,155,93,150,255,0] 0 = .ok [102,105,108,108,101,114,63,0] := by decide +kernel
-- null filler
example : Gsm7.Pack7BitUSSD [102,105,108,108,101,114,63,0] 0 = .ok [230,52,155,93,150,255,0] := by decide +kernel
-- fill1
example : Gsm7.Unpack7BitUSSD [254] 1 = .ok [127] := by decide +kernel
-- fill1
example : Gsm7.Pack7BitUSSD [127] 1 = .ok [254] := by decide +kernel
-- fill2
example : Gsm7.Unpack7BitUSSD [252,27] 2 = .ok [127] := by decide +kernel
-- fill2
example : Gsm7.Pack7BitUSSD [127] 2 = .ok [252,27] := by decide +kernel
-- fill3
example : Gsm7.Unpack7BitUSSD [248,3] 3 = .ok [127] := by decide +kernel
-- fill3
example : Gsm7.Pack7BitUSSD [127] 3 = .ok [248,3] := by decide +kernel
-- fill4
example : Gsm7.Unpack7BitUSSD [240,7] 4 = .ok [127] := by decide +kernel
-- fill4
example : Gsm7.Pack7BitUSSD [127] 4 = .ok [240,7] := by decide +kernel
-- fill5
example : Gsm7.Unpack7BitUSSD [224,15] 5 = .ok [127] := by decide +kernel
-- fill5
example : Gsm7.Pack7BitUSSD [127] 5 = .ok [224,15] := by decide +kernel
-- fill6
example : Gsm7.Unpack7BitUSSD [192,31] 6 = .ok [127] := by decide +kernel
-- fill6
example : Gsm7.Pack7BitUSSD [127] 6 = .ok [192,31] := by decide +kernel

/-! encoding/ucs2/ucs2_test.go, TestDecode. -/

-- nil
example : ((Ucs2.Decode []).runes, (Ucs2.Decode []).err) = ([], none) := by decide +kernel
-- empty
example : ((Ucs2.Decode []).runes, (Ucs2.Decode []).err) = ([], none) := by decide +kernel
-- odd
example : ((Ucs2.Decode [1,2,3,4,5]).runes, (Ucs2.Decode [1,2,3,4,5]).err) = ([], some .ucs2InvalidLength) := by decide +kernel
-- howdy
example : ((Ucs2.Decode [79,96,89,125,255,1,0,72,0,111,0,119,0,100,0,121]).runes, (Ucs2.Decode [79,96,89,125,255,1,0,72,0,111,0,119,0,100,0,121]).err) = ([20320,22909,65281,72,111,119,100,121], none) := by decide +kernel
-- grin
example : ((Ucs2.Decode [216,61,222,1]).runes, (Ucs2.Decode [216,61,222,1]).err) = ([128513], none) := by decide +kernel
-- dangling surrogate
example : ((Ucs2.Decode [0,72,0,111,0,119,0,100,0,121,216,61]).runes, (Ucs2.Decode [0,72,0,111,0,119,0,100,0,121,216,61]).err) = ([72,111,119,100,121], some (.ucs2Dangling [216,61])) := by decide +kernel

/-! encoding/ucs2/ucs2_test.go, TestEncode. -/

-- nil
example : Ucs2.Encode [] = [] := by decide +kernel
-- empty
example : Ucs2.Encode [] = [] := by decide +kernel
-- howdy
example : Ucs2.Encode [20320,22909,65281,72,111,119,100,121] = [79,96,89,125,255,1,0,72,0,111,0,119,0,100,0,121] := by decide +kernel
-- grin
example : Ucs2.Encode [128513] = [216,61,222,1] := by decide +kernel

/-! encoding/gsm7/gsm7_test.go, TestDecode. -/

-- empty
example : (Gsm7.NewDecoder []).Decode [] = .ok [] := by decide +kernel
-- base
example : (Gsm7.NewDecoder []).Decode [109,101,115,115,97,103,101] = .ok [109,101,115,115,97,103,101] := by decide +kernel
-- ext
example : (Gsm7.NewDecoder []).Decode [27,40,27,41] = .ok [123,125] := by decide +kernel
-- escaped
example : (Gsm7.NewDecoder []).Decode [109,101,115,27,64,115,97,103,101] = .ok [109,101,115,124,115,97,103,101] := by decide +kernel
-- double escaped
example : (Gsm7.NewDecoder []).Decode [109,101,115,27,27,64,115,97,103,101] = .ok [109,101,115,32,194,161,115,97,103,101] := by decide +kernel
-- dangling escape
example : (Gsm7.NewDecoder []).Decode [109,101,115,115,97,103,101,27] = .ok [109,101,115,115,97,103,101,32] := by decide +kernel

/-! encoding/gsm7/gsm7_test.go, TestDecoderWithCharset. -/

-- base
example : (Gsm7.Decoder.Decode { Gsm7.NewDecoder [] with set := [(109, 77), (101, 69), (115, 83), (97, 65), (103, 71)] }) [109,101,115,115,97,103,101] = .ok [77,69,83,83,65,71,69] := by decide +kernel
-- ext
example : (Gsm7.Decoder.Decode { Gsm7.NewDecoder [] with set := [(109, 77), (101, 69), (115, 83), (97, 65), (103, 71)] }) [27,40,27,41] = .ok [123,125] := by decide +kernel
-- escaped
example : (Gsm7.Decoder.Decode { Gsm7.NewDecoder [] with set := [(109, 77), (101, 69), (115, 83), (97, 65), (103, 71)] }) [109,101,115,27,64,115,97,103,101] = .ok [77,69,83,124,83,65,71,69] := by decide +kernel
-- double escaped
example : (Gsm7.Decoder.Decode { Gsm7.NewDecoder [] with set := [(109, 77), (101, 69), (115, 83), (97, 65), (103, 71)] }) [109,101,115,27,27,64,115,97,103,101] = .ok [77,69,83,32,32,83,65,71,69] := by decide +kernel
-- dangling escape
example : (Gsm7.Decoder.Decode { Gsm7.NewDecoder [] with set := [(109, 77), (101, 69), (115, 83), (97, 65), (103, 71)] }) [109,101,115,115,97,103,101,27] = .ok [77,69,83,83,65,71,69,32] := by decide +kernel
-- unknown
example : (Gsm7.Decoder.Decode { Gsm7.NewDecoder [] with set := [(109, 77), (101, 69), (115, 83), (97, 65), (103, 71)] }) [109,101,115,77,115,97,103,101] = .ok [77,69,83,32,83,65,71,69] := by decide +kernel

/-! encoding/gsm7/gsm7_test.go, TestDecoderWithExtCharset. -/

-- base
example : (Gsm7.Decoder.Decode { Gsm7.NewDecoder [] with ext := [(0x40, 81)] }) [64] = .ok [194,161] := by decide +kernel
-- ext
example : (Gsm7.Decoder.Decode { Gsm7.NewDecoder [] with ext := [(0x40, 81)] }) [27,64] = .ok [81] := by decide +kernel

/-! encoding/gsm7/gsm7_test.go, TestDecoderStrict. -/

-- known
example : (Gsm7.Decoder.Decode { (Gsm7.NewDecoder []).Strict with set := [(109, 77), (101, 69), (115, 83), (97, 65), (103, 71)], ext := [(101, 69), (120, 88), (116, 84)] }) [109,101,115,115,97,103,101] = .ok [77,69,83,83,65,71,69] := by decide +kernel
-- ext
example : (Gsm7.Decoder.Decode { (Gsm7.NewDecoder []).Strict with set := [(109, 77), (101, 69), (115, 83), (97, 65), (103, 71)], ext := [(101, 69), (120, 88), (116, 84)] }) [27,101,27,120,27,116] = .ok [69,88,84] := by decide +kernel
-- unknown
example : (Gsm7.Decoder.Decode { (Gsm7.NewDecoder []).Strict with set := [(109, 77), (101, 69), (115, 83), (97, 65), (103, 71)], ext := [(101, 69), (120, 88), (116, 84)] }) [109,101,115,77,115,97,103,101] = .error (.err (.gsm7InvalidSeptet 77)) := by decide +kernel
-- unknown ext
example : (Gsm7.Decoder.Decode { (Gsm7.NewDecoder []).Strict with set := [(109, 77), (101, 69), (115, 83), (97, 65), (103, 71)], ext := [(101, 69), (120, 88), (116, 84)] }) [109,101,115,27,109,115,97,103,101] = .error (.err (.gsm7InvalidSeptet 109)) := by decide +kernel

/-! encoding/gsm7/gsm7_test.go, TestEncode. -/

-- empty
example : (Gsm7.NewEncoder []).Encode [] = .ok [] := by decide +kernel
-- base
example : (Gsm7.NewEncoder []).Encode [109,101,115,115,97,103,101] = .ok [109,101,115,115,97,103,101] := by decide +kernel
-- ext
example : (Gsm7.NewEncoder []).Encode [123,125] = .ok [27,40,27,41] := by decide +kernel
-- escaped
example : (Gsm7.NewEncoder []).Encode [109,101,115,124,115,97,103,101] = .ok [109,101,115,27,64,115,97,103,101] := by decide +kernel
-- invalid
example : (Gsm7.NewEncoder []).Encode [109,101,115,197,158,115,97,103,101] = .error (.err (.gsm7InvalidUTF8 350)) := by decide +kernel

/-! encoding/gsm7/gsm7_test.go, TestEncoderWithCharset. -/

-- base
example : (Gsm7.Encoder.Encode { Gsm7.NewEncoder [] with set := [(350, 0x40)] }) [197,158] = .ok [64] := by decide +kernel
-- ext
example : (Gsm7.Encoder.Encode { Gsm7.NewEncoder [] with set := [(350, 0x40)] }) [124] = .ok [27,64] := by decide +kernel

/-! encoding/gsm7/gsm7_test.go, TestEncoderWithExtCharset. -/

-- base
example : (Gsm7.Encoder.Encode { Gsm7.NewEncoder [] with ext := [(350, 0x40)] }) [194,161] = .ok [64] := by decide +kernel
-- ext
example : (Gsm7.Encoder.Encode { Gsm7.NewEncoder [] with ext := [(350, 0x40)] }) [197,158] = .ok [27,64] := by decide +kernel

end Verif.Vectors
