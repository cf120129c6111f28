import Verif.Model.Cmd
import Verif.Model.Counter

/-!
The test tables of /repo, evaluated in the model.  Generated by tools/gen_vectors.py; do not edit.  These are
tests of the model's faithfulness: no claim of the manifest rests on them.
-/

namespace Verif.Vectors
open Verif.Model

/-! encoding/tpdu/address_test.go, TestAddressMarshalBinary. -/

-- empty
example : Address.MarshalBinary { TOA := 0, Addr := [] } = .ok [0,0] := by decide +kernel
-- number
example : Address.MarshalBinary { TOA := 145, Addr := [54,49,52,48,57,56,54,53,54,50,57] } = .ok [11,145,22,4,137,86,38,249] := by decide +kernel
-- number alphabet
example : Address.MarshalBinary { TOA := 145, Addr := [48,49,50,51,52,53,54,55,56,57,42,35,97,98,99] } = .ok [15,145,16,50,84,118,152,186,220,254] := by decide +kernel
-- alpha
example : Address.MarshalBinary { TOA := 209, Addr := [109,101,115,115,97,103,101,115] } = .ok [14,209,237,242,124,30,62,151,231] := by decide +kernel
-- alpha odd
example : Address.MarshalBinary { TOA := 209, Addr := [109,101,115,115,97,103,101] } = .ok [13,209,237,242,124,30,62,151,1] := by decide +kernel
-- alpha Vodafone
example : Address.MarshalBinary { TOA := 208, Addr := [86,111,100,97,102,111,110,101] } = .ok [14,208,214,55,57,108,126,187,203] := by decide +kernel
-- invalid number
example : Address.MarshalBinary { TOA := 145, Addr := [54,49,52,48,102,57,56,54,53,54] } = .error (.err (.encode "addr" (.semiInvalidDigit 102))) := by decide +kernel
-- invalid alpha euro
example : Address.MarshalBinary { TOA := 209, Addr := [97,32,101,117,114,111,32,226,130,172,51,50] } = .error (.err (.encode "addr" (.gsm7InvalidUTF8 8364))) := by decide +kernel
-- invalid alpha bar
example : Address.MarshalBinary { TOA := 209, Addr := [97,32,98,97,114,32,124,32] } = .error (.err (.encode "addr" (.gsm7InvalidUTF8 124))) := by decide +kernel
-- invalid alpha
example : Address.MarshalBinary { TOA := 209, Addr := [109,101,115,226,140,152,115,97,103,101,115] } = .error (.err (.encode "addr" (.gsm7InvalidUTF8 8984))) := by decide +kernel

/-! encoding/tpdu/address_test.go, TestAddressUnmarshalBinary. -/

-- empty
example : Address.UnmarshalBinary [0,0] = .ok ({ TOA := 0, Addr := [] }, 2) := by decide +kernel
-- number
example : Address.UnmarshalBinary [11,145,22,4,137,86,38,249] = .ok ({ TOA := 145, Addr := [54,49,52,48,57,56,54,53,54,50,57] }, 8) := by decide +kernel
-- number alphabet
example : Address.UnmarshalBinary [15,145,16,50,84,118,152,186,220,254] = .ok ({ TOA := 145, Addr := [48,49,50,51,52,53,54,55,56,57,42,35,97,98,99] }, 10) := by decide +kernel
-- alpha
example : Address.UnmarshalBinary [14,209,237,242,124,30,62,151,231] = .ok ({ TOA := 209, Addr := [109,101,115,115,97,103,101,115] }, 9) := by decide +kernel
-- alpha odd
example : Address.UnmarshalBinary [13,209,237,242,124,30,62,151,1] = .ok ({ TOA := 209, Addr := [109,101,115,115,97,103,101] }, 9) := by decide +kernel
-- alpha Vodafone
example : Address.UnmarshalBinary [14,208,214,55,57,108,126,187,203] = .ok ({ TOA := 208, Addr := [86,111,100,97,102,111,110,101] }, 9) := by decide +kernel
-- overlong number
example : Address.UnmarshalBinary [11,145,22,4,137,86,38,9] = .error (.err (.decode "addr" 2 .semiMissingFill)) := by decide +kernel
-- short binary
example : Address.UnmarshalBinary [0] = .error (.err (.decode "addr" 0 .underflow)) := by decide +kernel
-- short number
example : Address.UnmarshalBinary [11,145,22,4,137,86] = .error (.err (.decode "addr" 2 .underflow)) := by decide +kernel
-- short number pad
example : Address.UnmarshalBinary [12,145,22,4,137,86,151,247] = .error (.err (.decode "addr" 2 .underflow)) := by decide +kernel
-- invalid alpha bar
example : Address.UnmarshalBinary [10,209,237,242,124,3,156,135,207,229,57] = .error (.err (.decode "addr" 2 (.gsm7InvalidSeptet 64))) := by decide +kernel
-- underflow alpha
example : Address.UnmarshalBinary [10,209,207,229,57] = .error (.err (.decode "addr" 2 .underflow)) := by decide +kernel

/-! encoding/tpdu/timestamp_test.go, TestMarhalBinary. -/

-- 19700101
example : Timestamp.MarshalBinary (GoTime.date (1970) (1) (1) (1) (2) (3) (0)) = .ok [7,16,16,16,32,48,0] := by decide +kernel
-- 19991231
example : Timestamp.MarshalBinary (GoTime.date (1999) (12) (31) (23) (59) (59) (-900)) = .ok [153,33,19,50,149,149,24] := by decide +kernel
-- 20001231
example : Timestamp.MarshalBinary (GoTime.date (2000) (12) (31) (23) (59) (59) (900)) = .ok [0,33,19,50,149,149,16] := by decide +kernel
-- 20170831
example : Timestamp.MarshalBinary (GoTime.date (2017) (8) (31) (11) (21) (54) (28800)) = .ok [113,128,19,17,18,69,35] := by decide +kernel
-- 20700101
example : Timestamp.MarshalBinary (GoTime.date (2070) (1) (1) (1) (2) (3) (0)) = .ok [7,16,16,16,32,48,0] := by decide +kernel
-- 21001231
example : Timestamp.MarshalBinary (GoTime.date (2100) (12) (31) (23) (59) (59) (900)) = .ok [0,33,19,50,149,149,16] := by decide +kernel
-- 20701231
example : Timestamp.MarshalBinary (GoTime.date (2070) (12) (31) (23) (59) (59) (86400)) = .error (.err (.bcdInvalidInteger (96))) := by decide +kernel

/-! encoding/tpdu/timestamp_test.go, TestUnmarhalBinary. -/

-- 19700101
example : Timestamp.UnmarshalBinary [7,16,16,16,32,48,0] = .ok (GoTime.date (1970) (1) (1) (1) (2) (3) (0)) := by decide +kernel
-- 19991231
example : Timestamp.UnmarshalBinary [153,33,19,50,149,149,24] = .ok (GoTime.date (1999) (12) (31) (23) (59) (59) (-900)) := by decide +kernel
-- 20001231
example : Timestamp.UnmarshalBinary [0,33,19,50,149,149,16] = .ok (GoTime.date (2000) (12) (31) (23) (59) (59) (900)) := by decide +kernel
-- 20170831
example : Timestamp.UnmarshalBinary [113,128,19,17,18,69,35] = .ok (GoTime.date (2017) (8) (31) (11) (21) (54) (28800)) := by decide +kernel
-- short
example : Timestamp.UnmarshalBinary [113,128,19,17,18,69] = .error (.err .underflow) := by decide +kernel
-- invalid digit
example : Timestamp.UnmarshalBinary [161,128,19,17,18,69,0] = .error (.err (.bcdInvalidOctet 161)) := by decide +kernel
-- invalid signed digit
example : Timestamp.UnmarshalBinary [113,128,19,17,18,69,160] = .error (.err (.bcdInvalidOctet 160)) := by decide +kernel

/-! encoding/tpdu/validityperiod_test.go, TestVPMarshalBinary. -/

-- notpresent
example : ValidityPeriod.MarshalBinary {  } = .ok [] := by decide +kernel
-- absolute
example : ValidityPeriod.MarshalBinary { Format := 3, Time := GoTime.date (2017) (8) (31) (11) (21) (54) (28800) } = .ok [113,128,19,17,18,69,35] := by decide +kernel
-- relativeMinutes
example : ValidityPeriod.MarshalBinary { Format := 2, Duration := (39600000000000) } = .ok [131] := by decide +kernel
-- relativeHours
example : ValidityPeriod.MarshalBinary { Format := 2, Duration := (82800000000000) } = .ok [165] := by decide +kernel
-- relativeDays
example : ValidityPeriod.MarshalBinary { Format := 2, Duration := (2505600000000000) } = .ok [195] := by decide +kernel
-- relativeWeeks
example : ValidityPeriod.MarshalBinary { Format := 2, Duration := (37497600000000000) } = .ok [254] := by decide +kernel
-- relativeMax
example : ValidityPeriod.MarshalBinary { Format := 2, Duration := (38102400000000000) } = .ok [255] := by decide +kernel
-- enhancedNotPresent
example : ValidityPeriod.MarshalBinary { Format := 1, EFI := 0 } = .ok [0,0,0,0,0,0,0] := by decide +kernel
-- enhancedRelative5m
example : ValidityPeriod.MarshalBinary { Format := 1, EFI := 1 } = .ok [1,0,0,0,0,0,0] := by decide +kernel
-- enhancedRelative10m
example : ValidityPeriod.MarshalBinary { Format := 1, EFI := 1, Duration := (600000000000) } = .ok [1,1,0,0,0,0,0] := by decide +kernel
-- enhancedRelativeSeconds
example : ValidityPeriod.MarshalBinary { Format := 1, EFI := 2, Duration := (3600000000000) } = .ok [2,255,0,0,0,0,0] := by decide +kernel
-- enhancedHHMMSS
example : ValidityPeriod.MarshalBinary { Format := 1, EFI := 3, Duration := (11565000000000) } = .ok [3,48,33,84,0,0,0] := by decide +kernel
-- invalid enhanced
example : ValidityPeriod.MarshalBinary { Format := 1, EFI := 255 } = .error (.err (.encode "fi" .invalid)) := by decide +kernel

/-! encoding/tpdu/validityperiod_test.go, TestVPUnmarshalBinary. -/

-- notpresent
example : ValidityPeriod.UnmarshalBinary {} [] 0 = .ok ({  }, 0) := by decide +kernel
-- absolute
example : ValidityPeriod.UnmarshalBinary {} [113,128,19,17,18,69,35] 3 = .ok ({ Format := 3, Time := GoTime.date (2017) (8) (31) (11) (21) (54) (28800) }, 7) := by decide +kernel
-- relativeMinutes
example : ValidityPeriod.UnmarshalBinary {} [131] 2 = .ok ({ Format := 2, Duration := (39600000000000) }, 1) := by decide +kernel
-- relativeHours
example : ValidityPeriod.UnmarshalBinary {} [165] 2 = .ok ({ Format := 2, Duration := (82800000000000) }, 1) := by decide +kernel
-- relativeDays
example : ValidityPeriod.UnmarshalBinary {} [195] 2 = .ok ({ Format := 2, Duration := (2505600000000000) }, 1) := by decide +kernel
-- relativeWeeks
example : ValidityPeriod.UnmarshalBinary {} [254] 2 = .ok ({ Format := 2, Duration := (37497600000000000) }, 1) := by decide +kernel
-- relativeMax
example : ValidityPeriod.UnmarshalBinary {} [255] 2 = .ok ({ Format := 2, Duration := (38102400000000000) }, 1) := by decide +kernel
-- enhancedNotPresent
example : ValidityPeriod.UnmarshalBinary {} [0,0,0,0,0,0,0] 1 = .ok ({ Format := 1, EFI := 0 }, 7) := by decide +kernel
-- enhancedRelative5m
example : ValidityPeriod.UnmarshalBinary {} [1,0,0,0,0,0,0] 1 = .ok ({ Format := 1, EFI := 1, Duration := (300000000000) }, 7) := by decide +kernel
-- enhancedRelative10m
example : ValidityPeriod.UnmarshalBinary {} [1,1,0,0,0,0,0] 1 = .ok ({ Format := 1, EFI := 1, Duration := (600000000000) }, 7) := by decide +kernel
-- enhancedRelativeSeconds
example : ValidityPeriod.UnmarshalBinary {} [2,255,0,0,0,0,0] 1 = .ok ({ Format := 1, EFI := 2, Duration := (255000000000) }, 7) := by decide +kernel
-- enhancedHHMMSS
example : ValidityPeriod.UnmarshalBinary {} [3,48,33,84,0,0,0] 1 = .ok ({ Format := 1, EFI := 3, Duration := (11565000000000) }, 7) := by decide +kernel
-- underflow relative
example : ValidityPeriod.UnmarshalBinary {} [] 2 = .error (.err .underflow) := by decide +kernel
-- underflow enhanced
example : ValidityPeriod.UnmarshalBinary {} [0,1] 1 = .error (.err .underflow) := by decide +kernel
-- invalid vpf
example : ValidityPeriod.UnmarshalBinary {} [] 4 = .error (.err (.decode "vpf" 0 .invalid)) := by decide +kernel
-- invalid evpf
example : ValidityPeriod.UnmarshalBinary {} [7,1,45,84,0,0,0] 1 = .error (.err (.decode "enhanced" 0 .invalid)) := by decide +kernel
-- invalid enhancedHHMMSS
example : ValidityPeriod.UnmarshalBinary {} [3,48,45,84,0,0,0] 1 = .error (.err (.decode "enhanced" 1 (.bcdInvalidOctet 45))) := by decide +kernel
-- nonzero pad enhancedNotPresent
example : ValidityPeriod.UnmarshalBinary {} [0,1,0,0,0,0,0] 1 = .error (.err (.decode "enhanced" 1 .nonZero)) := by decide +kernel
-- nonzero pad enhancedRelative
example : ValidityPeriod.UnmarshalBinary {} [1,0,1,0,0,0,0] 1 = .error (.err (.decode "enhanced" 2 .nonZero)) := by decide +kernel

/-! encoding/tpdu/userdata_test.go, TestUserDataHeaderMarshalBinary. -/

-- empty
example : UDH.MarshalBinary [] = [] := by decide +kernel
-- one
example : UDH.MarshalBinary [⟨1, [1,2,3]⟩] = [5,1,3,1,2,3] := by decide +kernel
-- three
example : UDH.MarshalBinary [⟨1, [1,2,3]⟩, ⟨1, [5,6,7]⟩, ⟨2, [1,2,3]⟩] = [15,1,3,1,2,3,1,3,5,6,7,2,3,1,2,3] := by decide +kernel

/-! encoding/tpdu/userdata_test.go, TestUserDataHeaderUnmarshalBinary. -/

-- one
example : UDH.UnmarshalBinary [5,1,3,1,2,3] = .ok ([⟨1, [1,2,3]⟩], 6) := by decide +kernel
-- three
example : UDH.UnmarshalBinary [15,1,3,1,2,3,1,3,5,6,7,2,3,1,2,3] = .ok ([⟨1, [1,2,3]⟩, ⟨1, [5,6,7]⟩, ⟨2, [1,2,3]⟩], 16) := by decide +kernel
-- short udhl
example : UDH.UnmarshalBinary [] = .error (.err (.decode "udhl" 0 .underflow)) := by decide +kernel
-- short udh
example : UDH.UnmarshalBinary [5,1,3,1,2] = .error (.err (.decode "ie" 1 .underflow)) := by decide +kernel
-- short ie
example : UDH.UnmarshalBinary [1,1] = .error (.err (.decode "ie" 1 .underflow)) := by decide +kernel
-- short ied
example : UDH.UnmarshalBinary [3,1,3,1,2] = .error (.err (.decode "ied" 3 .underflow)) := by decide +kernel

/-! encoding/tpdu/userdata_test.go, TestConcatInfo. -/

-- empty
example : UDH.ConcatInfo [] = none := by decide +kernel
-- empty data
example : UDH.ConcatInfo [⟨0, []⟩] = none := by decide +kernel
-- nil data
example : UDH.ConcatInfo [⟨0, []⟩] = none := by decide +kernel
-- concat8
example : UDH.ConcatInfo [⟨0, [3,2,1]⟩] = some ⟨2, 1, 3⟩ := by decide +kernel
-- id 1
example : UDH.ConcatInfo [⟨1, [3,2,1]⟩] = none := by decide +kernel
-- concat16
example : UDH.ConcatInfo [⟨8, [4,3,2,1]⟩] = some ⟨2, 1, 1027⟩ := by decide +kernel
-- short concat8
example : UDH.ConcatInfo [⟨0, [2,1]⟩] = none := by decide +kernel
-- short concat16
example : UDH.ConcatInfo [⟨8, [3,2,1]⟩] = none := by decide +kernel

/-! encoding/tpdu/userdata_test.go, TestConcatInfo8. -/

-- empty
example : UDH.ConcatInfo8 [] = none := by decide +kernel
-- empty data
example : UDH.ConcatInfo8 [⟨0, []⟩] = none := by decide +kernel
-- nil data
example : UDH.ConcatInfo8 [⟨0, []⟩] = none := by decide +kernel
-- concat8
example : UDH.ConcatInfo8 [⟨0, [3,2,1]⟩] = some ⟨2, 1, 3⟩ := by decide +kernel
-- id 1
example : UDH.ConcatInfo8 [⟨1, [3,2,1]⟩] = none := by decide +kernel
-- concat16
example : UDH.ConcatInfo8 [⟨8, [4,3,2,1]⟩] = none := by decide +kernel
-- short concat8
example : UDH.ConcatInfo8 [⟨0, [2,1]⟩] = none := by decide +kernel
-- short concat16
example : UDH.ConcatInfo8 [⟨8, [3,2,1]⟩] = none := by decide +kernel

/-! encoding/tpdu/userdata_test.go, TestConcatInfo16. -/

-- empty
example : UDH.ConcatInfo16 [] = none := by decide +kernel
-- empty data
example : UDH.ConcatInfo16 [⟨0, []⟩] = none := by decide +kernel
-- nil data
example : UDH.ConcatInfo16 [⟨0, []⟩] = none := by decide +kernel
-- concat8
example : UDH.ConcatInfo16 [⟨0, [3,2,1]⟩] = none := by decide +kernel
-- id 1
example : UDH.ConcatInfo16 [⟨1, [3,2,1]⟩] = none := by decide +kernel
-- concat16
example : UDH.ConcatInfo16 [⟨8, [4,3,2,1]⟩] = some ⟨2, 1, 1027⟩ := by decide +kernel
-- short concat8
example : UDH.ConcatInfo16 [⟨0, [2,1]⟩] = none := by decide +kernel
-- short concat16
example : UDH.ConcatInfo16 [⟨8, [3,2,1]⟩] = none := by decide +kernel

/-! encoding/tpdu/userdata_test.go, TestDecodeUserData. -/

-- empty
example : DecodeUserData [] [] .a7Bit [] = ⟨[], none⟩ := by decide +kernel
-- message 7bit
example : DecodeUserData [109,101,115,115,97,103,101,16] [] .a7Bit [] = ⟨[109,101,115,115,97,103,101,206,148], none⟩ := by decide +kernel
-- message reserved
example : DecodeUserData [109,101,115,115,97,103,101,16] [] .reserved [] = ⟨[109,101,115,115,97,103,101,206,148], none⟩ := by decide +kernel
-- message 7bit esc
example : DecodeUserData [109,101,115,115,97,103,101,27] [] .a7Bit [] = ⟨[109,101,115,115,97,103,101,32], none⟩ := by decide +kernel
-- message 7bit locking
example : DecodeUserData [1,2,3] [⟨25, [7]⟩] .a7Bit [.locking [7]] = ⟨[224,178,130,224,178,131,224,178,133], none⟩ := by decide +kernel
-- message 7bit shift
example : DecodeUserData [27,30,27,31,27,32] [⟨24, [7]⟩] .a7Bit [.shift [7]] = ⟨[224,179,168,224,179,169,224,179,170], none⟩ := by decide +kernel
-- message 8bit
example : DecodeUserData [109,101,115,115,97,103,101,27] [] .a8Bit [] = ⟨[109,101,115,115,97,103,101,27], none⟩ := by decide +kernel
-- euro
example : DecodeUserData [27,101] [] .a7Bit [] = ⟨[226,130,172], none⟩ := by decide +kernel
-- grin
example : DecodeUserData [216,61,222,1] [] .ucs2 [] = ⟨[240,159,152,129], none⟩ := by decide +kernel
-- message 7bit locking defaulted
example : DecodeUserData [1,2,3] [⟨25, [7]⟩] .a7Bit [] = ⟨[194,163,36,194,165], none⟩ := by decide +kernel
-- message 7bit shift defaulted
example : DecodeUserData [27,30,27,31,27,32] [⟨24, [7]⟩] .a7Bit [] = ⟨[195,159,195,137,32], none⟩ := by decide +kernel
-- dangling surrogate
example : DecodeUserData [216,61,222,1,216,61] [] .ucs2 [] = ⟨[240,159,152,129], some (.ucs2Dangling [216,61])⟩ := by decide +kernel

/-! encoding/tpdu/userdata_test.go, TestDecodeUserDataAllCharsets. -/

-- empty
example : DecodeUserData [] [] .a7Bit [] = ⟨[], none⟩ := by decide +kernel
-- message 7bit
example : DecodeUserData [109,101,115,115,97,103,101,16] [] .a7Bit [] = ⟨[109,101,115,115,97,103,101,206,148], none⟩ := by decide +kernel
-- message reserved
example : DecodeUserData [109,101,115,115,97,103,101,16] [] .a7Bit [] = ⟨[109,101,115,115,97,103,101,206,148], none⟩ := by decide +kernel
-- message 7bit esc
example : DecodeUserData [109,101,115,115,97,103,101,27] [] .a7Bit [] = ⟨[109,101,115,115,97,103,101,32], none⟩ := by decide +kernel
-- message 7bit locking all cs
example : DecodeUserData [1,2,3] [⟨25, [7]⟩] .a7Bit [.all] = ⟨[224,178,130,224,178,131,224,178,133], none⟩ := by decide +kernel
-- message 7bit locking kannada
example : DecodeUserData [1,2,3] [⟨25, [7]⟩] .a7Bit [.charset [7]] = ⟨[224,178,130,224,178,131,224,178,133], none⟩ := by decide +kernel
-- message 7bit shift all cs
example : DecodeUserData [27,30,27,31,27,32] [⟨24, [7]⟩] .a7Bit [.all] = ⟨[224,179,168,224,179,169,224,179,170], none⟩ := by decide +kernel
-- message 7bit shift kannada
example : DecodeUserData [27,30,27,31,27,32] [⟨24, [7]⟩] .a7Bit [.charset [7]] = ⟨[224,179,168,224,179,169,224,179,170], none⟩ := by decide +kernel
-- euro
example : DecodeUserData [27,101] [] .a7Bit [] = ⟨[226,130,172], none⟩ := by decide +kernel

/-! encoding/tpdu/userdata_test.go, TestEncodeUserData. -/

-- empty
example : EncodeUserData [] [] = ([], [], .a7Bit) := by decide +kernel
-- message 7bit
example : EncodeUserData [109,101,115,115,97,103,101,206,148] [] = ([109,101,115,115,97,103,101,16], [], .a7Bit) := by decide +kernel
-- message 7bit all cs
example : EncodeUserData [109,101,115,115,97,103,101,206,148] [.all] = ([109,101,115,115,97,103,101,16], [], .a7Bit) := by decide +kernel
-- message 7bit locking all cs
example : EncodeUserData [224,178,130,224,178,131,224,178,133] [.all] = ([1,2,3], [⟨25, [7]⟩], .a7Bit) := by decide +kernel
-- message 7bit shift all cs
example : EncodeUserData [224,179,168,224,179,169,224,179,170] [.all] = ([27,30,27,31,27,32], [⟨24, [7]⟩], .a7Bit) := by decide +kernel
-- message 7bit kannada
example : EncodeUserData [224,178,130,224,178,131,224,178,133] [.charset [7]] = ([1,2,3], [⟨25, [7]⟩], .a7Bit) := by decide +kernel
-- message 7bit locking kannada
example : EncodeUserData [224,178,130,224,178,131,224,178,133] [.locking [7]] = ([1,2,3], [⟨25, [7]⟩], .a7Bit) := by decide +kernel
-- message 7bit shift kannada
example : EncodeUserData [224,179,168,224,179,169,224,179,170] [.shift [7]] = ([27,30,27,31,27,32], [⟨24, [7]⟩], .a7Bit) := by decide +kernel
-- message 7bit locking and shift urdu
example : EncodeUserData [104,101,108,108,111,32,216,170,216,142] [.locking [13], .shift [13]] = ([104,101,108,108,111,32,7,27,42], [⟨25, [13]⟩, ⟨24, [13]⟩], .a7Bit) := by decide +kernel
-- euro
example : EncodeUserData [226,130,172] [] = ([27,101], [], .a7Bit) := by decide +kernel
-- grin
example : EncodeUserData [240,159,152,129] [] = ([216,61,222,1], [], .ucs2) := by decide +kernel
-- grin all cs
example : EncodeUserData [240,159,152,129] [.all] = ([216,61,222,1], [], .ucs2) := by decide +kernel
-- message ucs2 locking
example : EncodeUserData [224,178,130,224,178,131,224,178,133] [] = ([12,130,12,131,12,133], [], .ucs2) := by decide +kernel
-- message ucs2 shift
example : EncodeUserData [224,179,168,224,179,169,224,179,170] [] = ([12,232,12,233,12,234], [], .ucs2) := by decide +kernel

/-! encoding/tpdu/dcs_test.go, TestDCSCompressed. -/

example : DCS.Compressed 0 = false := by decide +kernel
example : DCS.Compressed 16 = false := by decide +kernel
example : DCS.Compressed 32 = true := by decide +kernel
example : DCS.Compressed 48 = true := by decide +kernel
example : DCS.Compressed 64 = false := by decide +kernel
example : DCS.Compressed 80 = false := by decide +kernel
example : DCS.Compressed 96 = true := by decide +kernel
example : DCS.Compressed 112 = true := by decide +kernel
example : DCS.Compressed 128 = false := by decide +kernel
example : DCS.Compressed 144 = false := by decide +kernel
example : DCS.Compressed 160 = false := by decide +kernel
example : DCS.Compressed 176 = false := by decide +kernel
example : DCS.Compressed 192 = false := by decide +kernel
example : DCS.Compressed 208 = false := by decide +kernel
example : DCS.Compressed 224 = false := by decide +kernel
example : DCS.Compressed 240 = false := by decide +kernel

/-! encoding/tpdu/firstoctet_test.go, TestFirstMTI. -/

example : FirstOctet.MTI 2 = 2 := by decide +kernel
example : FirstOctet.MTI 0 = 0 := by decide +kernel
example : FirstOctet.MTI 1 = 1 := by decide +kernel
example : FirstOctet.MTI 3 = 3 := by decide +kernel

/-! encoding/tpdu/firstoctet_test.go, TestFirstOctetVPF. -/

example : FirstOctet.VPF 0 = 0 := by decide +kernel
example : FirstOctet.VPF 16 = 2 := by decide +kernel
example : FirstOctet.VPF 24 = 3 := by decide +kernel
example : FirstOctet.VPF 8 = 1 := by decide +kernel

/-! encoding/tpdu/firstoctet_test.go, TestFirstWithMTI. -/

example : FirstOctet.MTI (FirstOctet.WithMTI 0 2) = 2 := by decide +kernel
example : FirstOctet.MTI (FirstOctet.WithMTI 0 0) = 0 := by decide +kernel
example : FirstOctet.MTI (FirstOctet.WithMTI 0 1) = 1 := by decide +kernel
example : FirstOctet.MTI (FirstOctet.WithMTI 0 3) = 3 := by decide +kernel

/-! encoding/tpdu/firstoctet_test.go, TestFirstOctetWithVPF. -/

example : FirstOctet.VPF (FirstOctet.WithVPF 0 0) = 0 := by decide +kernel
example : FirstOctet.VPF (FirstOctet.WithVPF 0 2) = 2 := by decide +kernel
example : FirstOctet.VPF (FirstOctet.WithVPF 0 3) = 3 := by decide +kernel
example : FirstOctet.VPF (FirstOctet.WithVPF 0 1) = 1 := by decide +kernel

end Verif.Vectors
