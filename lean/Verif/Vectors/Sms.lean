import Verif.Model.Cmd
import Verif.Model.Counter

/-!
The test tables of /repo, evaluated in the model.  Generated by tools/gen_vectors.py; do not edit.  These are
tests of the model's faithfulness: no claim of the manifest rests on them.
-/

namespace Verif.Vectors
open Verif.Model

/-! encoding/pdumode/smscaddress_test.go, TestSMSCAddressMarshalBinary. -/

-- empty
example : SMSCAddress.MarshalBinary { TOA := 0, Addr := [] } = .ok [0] := by decide +kernel
-- number
example : SMSCAddress.MarshalBinary { TOA := 145, Addr := [54,49,52,48,57,56,54,53,54,50,57] } = .ok [7,145,22,4,137,86,38,249] := by decide +kernel
-- number alphabet
example : SMSCAddress.MarshalBinary { TOA := 145, Addr := [48,49,50,51,52,53,54,55,56,57,42,35,97,98,99] } = .ok [9,145,16,50,84,118,152,186,220,254] := by decide +kernel
-- alpha
example : SMSCAddress.MarshalBinary { TOA := 209, Addr := [109,101,115,115,97,103,101,115] } = .error (.err (.encode "addr" (.semiInvalidDigit 109))) := by decide +kernel
-- invalid number
example : SMSCAddress.MarshalBinary { TOA := 145, Addr := [54,49,52,48,102,57,56,54,53,54] } = .error (.err (.encode "addr" (.semiInvalidDigit 102))) := by decide +kernel

/-! encoding/pdumode/smscaddress_test.go, TestSMSCAddressUnmarshalBinary. -/

-- nil
example : SMSCAddress.UnmarshalBinary {} [] = .error (.err (.decode "length" 0 .underflow)) := by decide +kernel
-- only toa
example : SMSCAddress.UnmarshalBinary {} [1,0] = .ok ({ TOA := 0, Addr := [] }, 2) := by decide +kernel
-- number
example : SMSCAddress.UnmarshalBinary {} [7,145,22,4,137,86,38,249] = .ok ({ TOA := 145, Addr := [54,49,52,48,57,56,54,53,54,50,57] }, 8) := by decide +kernel
-- number alphabet
example : SMSCAddress.UnmarshalBinary {} [9,145,16,50,84,118,152,186,220,254] = .ok ({ TOA := 145, Addr := [48,49,50,51,52,53,54,55,56,57,42,35,97,98,99] }, 10) := by decide +kernel
-- alpha
example : SMSCAddress.UnmarshalBinary {} [8,209,237,242,124,30,62,151,231] = .ok ({ TOA := 209, Addr := [98,99,50,97,55,99,49,99,51,55,57,55,99] }, 9) := by decide +kernel
-- zero length
example : SMSCAddress.UnmarshalBinary {} [0] = .ok ({ TOA := 0, Addr := [] }, 1) := by decide +kernel
-- short number
example : SMSCAddress.UnmarshalBinary {} [11,145,22,4,137,86] = .error (.err (.decode "addr" 2 .underflow)) := by decide +kernel
-- short number pad
example : SMSCAddress.UnmarshalBinary {} [12,145,22,4,137,86,151,247] = .error (.err (.decode "addr" 2 .underflow)) := by decide +kernel
-- underflow alpha
example : SMSCAddress.UnmarshalBinary {} [5,209,207,229,57] = .error (.err (.decode "addr" 2 .underflow)) := by decide +kernel
-- underflow toa
example : SMSCAddress.UnmarshalBinary {} [1] = .error (.err (.decode "toa" 1 .underflow)) := by decide +kernel

/-! encoding/pdumode/pdu_test.go, decodePatterns. -/

-- empty
example : PDU.UnmarshalHexString [] = .error (.err (.decode "length" 0 .underflow)) := by decide +kernel
-- empty
example : PDU.UnmarshalBinary [] = .error (.err (.decode "length" 0 .underflow)) := by decide +kernel
-- valid
example : PDU.UnmarshalHexString [48,55,57,49,51,54,49,57,48,55,48,48,50,48,51,57,48,49,48,50,48,51,48,52,48,53,48,54,48,55,48,56,48,57] = .ok { SMSC := { TOA := 145, Addr := [54,51,57,49,55,48,48,48,48,50,57,51] }, TPDU := [1,2,3,4,5,6,7,8,9] } := by decide +kernel
-- valid
example : PDU.UnmarshalBinary [7,145,54,25,7,0,32,57,1,2,3,4,5,6,7,8,9] = .ok { SMSC := { TOA := 145, Addr := [54,51,57,49,55,48,48,48,48,50,57,51] }, TPDU := [1,2,3,4,5,6,7,8,9] } := by decide +kernel

/-! encoding/pdumode/pdu_test.go, TestMarshalBinary. -/

-- empty
example : ({ SMSC := { TOA := 0, Addr := [] }, TPDU := [] } : PDU).MarshalBinary = .ok [0] := by decide +kernel
-- valid
example : ({ SMSC := { TOA := 145, Addr := [54,51,57,49,55,48,48,48,48,50,57,51] }, TPDU := [1,2,3,4,5,6,7,8,9] } : PDU).MarshalBinary = .ok [7,145,54,25,7,0,32,57,1,2,3,4,5,6,7,8,9] := by decide +kernel
-- invalid addr
example : ({ SMSC := { TOA := 0, Addr := [98,97,110,97,110,97] }, TPDU := [] } : PDU).MarshalBinary = .error (.err (.encode "addr" (.semiInvalidDigit 110))) := by decide +kernel

/-! encoding/pdumode/pdu_test.go, TestMarshalHexString. -/

-- empty
example : ({ SMSC := { TOA := 0, Addr := [] }, TPDU := [] } : PDU).MarshalHexString = .ok [48,48] := by decide +kernel
-- valid
example : ({ SMSC := { TOA := 145, Addr := [54,51,57,49,55,48,48,48,48,50,57,51] }, TPDU := [1,2,3,4,5,6,7,8,9] } : PDU).MarshalHexString = .ok [48,55,57,49,51,54,49,57,48,55,48,48,50,48,51,57,48,49,48,50,48,51,48,52,48,53,48,54,48,55,48,56,48,57] := by decide +kernel
-- invalid addr
example : ({ SMSC := { TOA := 0, Addr := [98,97,110,97,110,97] }, TPDU := [] } : PDU).MarshalHexString = .error (.err (.encode "addr" (.semiInvalidDigit 110))) := by decide +kernel

/-! sms_test.go, TestDecode. -/

-- two segment 7bit
example : Sms.Decode [{ UD := [116,104,105,115,32,105,115,32,97,32,118,101,114,121,32,108,111,110,103,32,109,101,115,115,97,103,101,32,116,104,97,116,32,100,111,101,115,32,110,111,116,32,102,105,116,32,105,110,32,97,32,115,105,110,103,108,101,32,83,77,83,32,109,101,115,115,97,103,101,44,32,97,116,32,108,101,97,115,116,32,105,116,32,119,105,108,108,32,105,102,32,73,32,107,101,101,112,32,97,100,100,105,110,103,32,109,111,114,101,32,116,111,32,105,116,32,97,115,32,49,54,48,32,99,104,97,114,97,99,116,101,114,115,32,105,115,32,109,111,114,101,32,116,104,97,110,32,121,111,117,32,109,105] }, { UD := [103,104,116,32,116,104,105,110,107] }] [] = .ok [116,104,105,115,32,105,115,32,97,32,118,101,114,121,32,108,111,110,103,32,109,101,115,115,97,103,101,32,116,104,97,116,32,100,111,101,115,32,110,111,116,32,102,105,116,32,105,110,32,97,32,115,105,110,103,108,101,32,83,77,83,32,109,101,115,115,97,103,101,44,32,97,116,32,108,101,97,115,116,32,105,116,32,119,105,108,108,32,105,102,32,73,32,107,101,101,112,32,97,100,100,105,110,103,32,109,111,114,101,32,116,111,32,105,116,32,97,115,32,49,54,48,32,99,104,97,114,97,99,116,101,114,115,32,105,115,32,109,111,114,101,32,116,104,97,110,32,121,111,117,32,109,105,103,104,116,32,116,104,105,110,107] := by decide +kernel
-- two segment 8bit
example : Sms.Decode [{ DCS := 4, UD := [116,104,105,115,32,105,115,32,97,32,118,101,114,121,32,108,111,110,103,32,109,101,115,115,97,103,101,32,116,104,97,116,32,100,111,101,115,32,110,111,116,32,102,105,116,32,105,110,32,97,32,115,105,110,103,108,101,32,83,77,83,32,109,101,115,115,97,103,101,44,32,97,116,32,108,101,97,115,116,32,105,116,32,119,105,108,108,32,105,102,32,73,32,107,101,101,112,32,97,100,100,105,110,103,32,109,111,114,101,32,116,111,32,105,116,32,97,115,32,49,54,48,32,99,104,97,114,97,99,116,101,114,115,32,105,115,32,109,111,114,101,32,116,104,97,110,32,121,111,117,32,109,105] }, { DCS := 4, UD := [103,104,116,32,116,104,105,110,107] }] [] = .ok [116,104,105,115,32,105,115,32,97,32,118,101,114,121,32,108,111,110,103,32,109,101,115,115,97,103,101,32,116,104,97,116,32,100,111,101,115,32,110,111,116,32,102,105,116,32,105,110,32,97,32,115,105,110,103,108,101,32,83,77,83,32,109,101,115,115,97,103,101,44,32,97,116,32,108,101,97,115,116,32,105,116,32,119,105,108,108,32,105,102,32,73,32,107,101,101,112,32,97,100,100,105,110,103,32,109,111,114,101,32,116,111,32,105,116,32,97,115,32,49,54,48,32,99,104,97,114,97,99,116,101,114,115,32,105,115,32,109,111,114,101,32,116,104,97,110,32,121,111,117,32,109,105,103,104,116,32,116,104,105,110,107] := by decide +kernel
-- single segment 8bit
example : Sms.Decode [{ DCS := 4, UD := [116,104,105,115,32,105,115,32,110,111,116,32,97,32,118,101,114,121,32,108,111,110,103,32,109,101,115,115,97,103,101] }] [] = .ok [116,104,105,115,32,105,115,32,110,111,116,32,97,32,118,101,114,121,32,108,111,110,103,32,109,101,115,115,97,103,101] := by decide +kernel
-- single segment 7bit
example : Sms.Decode [{ UD := [104,101,108,108,111,32,3] }] [] = .ok [104,101,108,108,111,32,194,165] := by decide +kernel
-- single segment 7bit implicit urdu
example : Sms.Decode [{ UDH := [⟨25, [13]⟩], UD := [104,101,108,108,111,32,3] }] [] = .ok [104,101,108,108,111,32,217,187] := by decide +kernel
-- single segment 7bit explicit urdu
example : Sms.Decode [{ UDH := [⟨25, [13]⟩], UD := [104,101,108,108,111,32,3] }] [.charset [13]] = .ok [104,101,108,108,111,32,217,187] := by decide +kernel
-- single segment 7bit locking urdu
example : Sms.Decode [{ UDH := [⟨25, [13]⟩], UD := [104,101,108,108,111,32,3] }] [.locking [13]] = .ok [104,101,108,108,111,32,217,187] := by decide +kernel
-- single segment 7bit shift urdu
example : Sms.Decode [{ UDH := [⟨24, [13]⟩], UD := [104,101,108,108,111,32,27,43] }] [.shift [13]] = .ok [104,101,108,108,111,32,216,143] := by decide +kernel
-- single segment 7bit urdu unsupported
example : Sms.Decode [{ UDH := [⟨25, [13]⟩], UD := [104,101,108,108,111,32,3] }] [.charset []] = .ok [104,101,108,108,111,32,194,165] := by decide +kernel
-- ucs2 split surrogate
example : Sms.Decode [{ DCS := 8, UD := [216,61,222,1,216,61] }, { DCS := 8, UD := [222,1,216,61,222,1] }] [] = .ok [240,159,152,129,240,159,152,129,240,159,152,129] := by decide +kernel
-- ucs2 dangling surrogate
example : Sms.Decode [{ DCS := 8, UD := [216,61,222,1,216,61] }] [] = .error (.err (.ucs2Dangling [216,61])) := by decide +kernel
-- ucs2 odd length
example : Sms.Decode [{ DCS := 8, UD := [216,61,222,1,216] }] [] = .error (.err .ucs2InvalidLength) := by decide +kernel

/-! sms_test.go, TestIsCompleteMessage. -/

-- nil
example : Sms.IsCompleteMessage [] = false := by decide +kernel
-- empty
example : Sms.IsCompleteMessage [] = false := by decide +kernel
-- single segment
example : Sms.IsCompleteMessage [{  }] = true := by decide +kernel
-- segment count mismatch
example : Sms.IsCompleteMessage [{ UDH := [⟨0, [3,2,1]⟩] }] = false := by decide +kernel
-- segments mismatch
example : Sms.IsCompleteMessage [{ UDH := [⟨0, [3,2,1]⟩] }, { UDH := [⟨0, [3,3,2]⟩] }] = false := by decide +kernel
-- concatRef mismatch
example : Sms.IsCompleteMessage [{ UDH := [⟨0, [3,2,1]⟩] }, { UDH := [⟨0, [4,2,2]⟩] }] = false := by decide +kernel
-- misordered segments
example : Sms.IsCompleteMessage [{ UDH := [⟨0, [3,2,2]⟩] }, { UDH := [⟨0, [3,2,1]⟩] }] = false := by decide +kernel
-- missing concat
example : Sms.IsCompleteMessage [{ UDH := [⟨0, [3,2,1]⟩] }, {  }] = false := by decide +kernel
-- no concat
example : Sms.IsCompleteMessage [{  }, { UDH := [⟨3, [3,2,2]⟩] }] = false := by decide +kernel
-- two segments
example : Sms.IsCompleteMessage [{ UDH := [⟨0, [3,2,1]⟩] }, { UDH := [⟨0, [3,2,2]⟩] }] = true := by decide +kernel

/-! sms_test.go, TestUnmarshal. -/

-- empty
example : Sms.Unmarshal [] MT = .error (.err (.decode "tpdu.firstOctet" 0 .underflow)) := by decide +kernel
-- deliver single segment
example : Sms.Unmarshal [4,4,145,54,25,0,0,81,80,113,50,32,5,35,8,200,48,58,140,14,163,195] MT = .ok { FirstOctet := 4, OA := { TOA := 145, Addr := [54,51,57,49] }, SCTS := GoTime.date (2015) (5) (17) (23) (2) (50) (28800), UD := [72,97,104,97,104,97,104,97] } := by decide +kernel
-- submit single segment
example : Sms.Unmarshal [49,7,4,145,54,25,0,0,169,8,200,48,58,140,14,163,195] MO = .ok { Direction := (1), FirstOctet := 49, MR := 7, DA := { TOA := 145, Addr := [54,51,57,49] }, VP := { Format := 2, Duration := (259200000000000) }, UD := [72,97,104,97,104,97,104,97] } := by decide +kernel
-- submitreport
example : Sms.Unmarshal [6,24,4,145,54,25,17,16,17,113,149,81,64,17,16,17,113,149,113,64,0] MT = .ok { FirstOctet := 6, MR := 24, RA := { TOA := 145, Addr := [54,51,57,49] }, SCTS := GoTime.date (2011) (1) (11) (17) (59) (15) (3600), DT := GoTime.date (2011) (1) (11) (17) (59) (17) (3600) } := by decide +kernel

/-! encode_test.go, TestNewEncoder. -/

-- nil
example : Sms.Encode [] [] = .ok [] := by decide +kernel
-- nil
example : ((Sms.NewEncoder [Sms.AsSubmit]).Encode [] []).map (·.pdus) = .ok [] := by decide +kernel
-- empty
example : Sms.Encode [] [] = .ok [] := by decide +kernel
-- empty
example : ((Sms.NewEncoder [Sms.AsSubmit]).Encode [] []).map (·.pdus) = .ok [] := by decide +kernel
-- single segment
example : Sms.Encode [104,101,108,108,111] [] = .ok [{ Direction := (1), FirstOctet := 1, MR := 1, UD := [104,101,108,108,111] }] := by decide +kernel
-- single segment
example : ((Sms.NewEncoder [Sms.AsSubmit]).Encode [104,101,108,108,111] []).map (·.pdus) = .ok [{ Direction := (1), FirstOctet := 1, MR := 1, UD := [104,101,108,108,111] }] := by decide +kernel
-- single segment grin
example : Sms.Encode [104,101,108,108,111,32,240,159,152,129] [] = .ok [{ Direction := (1), FirstOctet := 1, PI := 2, DCS := 8, MR := 1, UD := [0,104,0,101,0,108,0,108,0,111,0,32,216,61,222,1] }] := by decide +kernel
-- single segment grin
example : ((Sms.NewEncoder [Sms.AsSubmit]).Encode [104,101,108,108,111,32,240,159,152,129] []).map (·.pdus) = .ok [{ Direction := (1), FirstOctet := 1, PI := 2, DCS := 8, MR := 1, UD := [0,104,0,101,0,108,0,108,0,111,0,32,216,61,222,1] }] := by decide +kernel
-- three grins
example : Sms.Encode [240,159,152,129,240,159,152,129,240,159,152,129] [] = .ok [{ Direction := (1), FirstOctet := 1, PI := 2, DCS := 8, MR := 1, UD := [216,61,222,1,216,61,222,1,216,61,222,1] }] := by decide +kernel
-- three grins
example : ((Sms.NewEncoder [Sms.AsSubmit]).Encode [240,159,152,129,240,159,152,129,240,159,152,129] []).map (·.pdus) = .ok [{ Direction := (1), FirstOctet := 1, PI := 2, DCS := 8, MR := 1, UD := [216,61,222,1,216,61,222,1,216,61,222,1] }] := by decide +kernel
-- single segment unused urdu
example : Sms.Encode [104,101,108,108,111] [.charsets (.charset [13])] = .ok [{ Direction := (1), FirstOctet := 1, MR := 1, UD := [104,101,108,108,111] }] := by decide +kernel
-- single segment unused urdu
example : ((Sms.NewEncoder [Sms.AsSubmit]).Encode [104,101,108,108,111] [.charsets (.charset [13])]).map (·.pdus) = .ok [{ Direction := (1), FirstOctet := 1, MR := 1, UD := [104,101,108,108,111] }] := by decide +kernel
-- single segment with urdu
example : Sms.Encode [104,101,108,108,111,32,216,170] [.charsets (.charset [13])] = .ok [{ Direction := (1), FirstOctet := 65, MR := 1, PI := 4, UDH := [⟨25, [13]⟩], UD := [104,101,108,108,111,32,7] }] := by decide +kernel
-- single segment with urdu
example : ((Sms.NewEncoder [Sms.AsSubmit]).Encode [104,101,108,108,111,32,216,170] [.charsets (.charset [13])]).map (·.pdus) = .ok [{ Direction := (1), FirstOctet := 65, MR := 1, PI := 4, UDH := [⟨25, [13]⟩], UD := [104,101,108,108,111,32,7] }] := by decide +kernel
-- single segment with locking urdu
example : Sms.Encode [104,101,108,108,111,32,216,170] [.charsets (.locking [13])] = .ok [{ Direction := (1), FirstOctet := 65, MR := 1, PI := 4, UDH := [⟨25, [13]⟩], UD := [104,101,108,108,111,32,7] }] := by decide +kernel
-- single segment with locking urdu
example : ((Sms.NewEncoder [Sms.AsSubmit]).Encode [104,101,108,108,111,32,216,170] [.charsets (.locking [13])]).map (·.pdus) = .ok [{ Direction := (1), FirstOctet := 65, MR := 1, PI := 4, UDH := [⟨25, [13]⟩], UD := [104,101,108,108,111,32,7] }] := by decide +kernel
-- single segment with shift urdu
example : Sms.Encode [104,101,108,108,111,32,216,142] [.charsets (.shift [13])] = .ok [{ Direction := (1), FirstOctet := 65, MR := 1, PI := 4, UDH := [⟨24, [13]⟩], UD := [104,101,108,108,111,32,27,42] }] := by decide +kernel
-- single segment with shift urdu
example : ((Sms.NewEncoder [Sms.AsSubmit]).Encode [104,101,108,108,111,32,216,142] [.charsets (.shift [13])]).map (·.pdus) = .ok [{ Direction := (1), FirstOctet := 65, MR := 1, PI := 4, UDH := [⟨24, [13]⟩], UD := [104,101,108,108,111,32,27,42] }] := by decide +kernel
-- single segment discovered urdu
example : Sms.Encode [104,101,108,108,111,32,216,170,216,142] [.charsets (.all)] = .ok [{ Direction := (1), FirstOctet := 65, MR := 1, PI := 4, UDH := [⟨25, [13]⟩, ⟨24, [13]⟩], UD := [104,101,108,108,111,32,7,27,42] }] := by decide +kernel
-- single segment discovered urdu
example : ((Sms.NewEncoder [Sms.AsSubmit]).Encode [104,101,108,108,111,32,216,170,216,142] [.charsets (.all)]).map (·.pdus) = .ok [{ Direction := (1), FirstOctet := 65, MR := 1, PI := 4, UDH := [⟨25, [13]⟩, ⟨24, [13]⟩], UD := [104,101,108,108,111,32,7,27,42] }] := by decide +kernel
-- single segment UCS2
example : Sms.Encode [104,101,108,108,111,33] [Sms.AsUCS2] = .ok [{ Direction := (1), FirstOctet := 1, PI := 2, DCS := 8, MR := 1, UD := [104,101,108,108,111,33] }] := by decide +kernel
-- single segment UCS2
example : ((Sms.NewEncoder [Sms.AsSubmit]).Encode [104,101,108,108,111,33] [Sms.AsUCS2]).map (·.pdus) = .ok [{ Direction := (1), FirstOctet := 1, PI := 2, DCS := 8, MR := 1, UD := [104,101,108,108,111,33] }] := by decide +kernel
-- dcs conflict
example : Sms.Encode [104,101,108,108,111,32,240,159,152,129] [.templateOption (.dcs 128)] = .error (.err .dcsConflict) := by decide +kernel
-- dcs conflict
example : ((Sms.NewEncoder [Sms.AsSubmit]).Encode [104,101,108,108,111,32,240,159,152,129] [.templateOption (.dcs 128)]).map (·.pdus) = .error (.err .dcsConflict) := by decide +kernel
-- deliver single segment
example : Sms.Encode [104,101,108,108,111] [Sms.AsDeliver] = .ok [{ MR := 1, UD := [104,101,108,108,111] }] := by decide +kernel
-- deliver single segment
example : ((Sms.NewEncoder [Sms.AsSubmit]).Encode [104,101,108,108,111] [Sms.AsDeliver]).map (·.pdus) = .ok [{ MR := 1, UD := [104,101,108,108,111] }] := by decide +kernel
-- number
example : Sms.Encode [104,101,108,108,111] [Sms.To [49,50,51,52]] = .ok [{ Direction := (1), FirstOctet := 1, MR := 1, DA := { TOA := 145, Addr := [49,50,51,52] }, UD := [104,101,108,108,111] }] := by decide +kernel
-- number
example : ((Sms.NewEncoder [Sms.AsSubmit]).Encode [104,101,108,108,111] [Sms.To [49,50,51,52]]).map (·.pdus) = .ok [{ Direction := (1), FirstOctet := 1, MR := 1, DA := { TOA := 145, Addr := [49,50,51,52] }, UD := [104,101,108,108,111] }] := by decide +kernel
-- deliver number
example : Sms.Encode [104,101,108,108,111] [Sms.AsDeliver, Sms.From [49,50,51,52]] = .ok [{ MR := 1, OA := { TOA := 145, Addr := [49,50,51,52] }, UD := [104,101,108,108,111] }] := by decide +kernel
-- deliver number
example : ((Sms.NewEncoder [Sms.AsSubmit]).Encode [104,101,108,108,111] [Sms.AsDeliver, Sms.From [49,50,51,52]]).map (·.pdus) = .ok [{ MR := 1, OA := { TOA := 145, Addr := [49,50,51,52] }, UD := [104,101,108,108,111] }] := by decide +kernel
-- plus number
example : Sms.Encode [104,101,108,108,111] [Sms.To [43,49,50,51,52]] = .ok [{ Direction := (1), FirstOctet := 1, MR := 1, DA := { TOA := 145, Addr := [49,50,51,52] }, UD := [104,101,108,108,111] }] := by decide +kernel
-- plus number
example : ((Sms.NewEncoder [Sms.AsSubmit]).Encode [104,101,108,108,111] [Sms.To [43,49,50,51,52]]).map (·.pdus) = .ok [{ Direction := (1), FirstOctet := 1, MR := 1, DA := { TOA := 145, Addr := [49,50,51,52] }, UD := [104,101,108,108,111] }] := by decide +kernel
-- two segment 7bit
example : Sms.Encode [116,104,105,115,32,105,115,32,97,32,118,101,114,121,32,108,111,110,103,32,109,101,115,115,97,103,101,32,116,104,97,116,32,100,111,101,115,32,110,111,116,32,102,105,116,32,105,110,32,97,32,115,105,110,103,108,101,32,83,77,83,32,109,101,115,115,97,103,101,44,32,97,116,32,108,101,97,115,116,32,105,116,32,119,105,108,108,32,105,102,32,73,32,107,101,101,112,32,97,100,100,105,110,103,32,109,111,114,101,32,116,111,32,105,116,32,97,115,32,49,54,48,32,99,104,97,114,97,99,116,101,114,115,32,105,115,32,109,111,114,101,32,116,104,97,110,32,121,111,117,32,109,105,103,104,116,32,116,104,105,110,107] [Sms.To [49,50,51,52]] = .ok [{ Direction := (1), FirstOctet := 65, MR := 1, PI := 4, DA := { TOA := 145, Addr := [49,50,51,52] }, UDH := [⟨0, [1,2,1]⟩], UD := [116,104,105,115,32,105,115,32,97,32,118,101,114,121,32,108,111,110,103,32,109,101,115,115,97,103,101,32,116,104,97,116,32,100,111,101,115,32,110,111,116,32,102,105,116,32,105,110,32,97,32,115,105,110,103,108,101,32,83,77,83,32,109,101,115,115,97,103,101,44,32,97,116,32,108,101,97,115,116,32,105,116,32,119,105,108,108,32,105,102,32,73,32,107,101,101,112,32,97,100,100,105,110,103,32,109,111,114,101,32,116,111,32,105,116,32,97,115,32,49,54,48,32,99,104,97,114,97,99,116,101,114,115,32,105,115,32,109,111,114,101,32,116,104,97,110,32,121,111,117,32,109,105] }, { Direction := (1), FirstOctet := 65, MR := 2, PI := 4, DA := { TOA := 145, Addr := [49,50,51,52] }, UDH := [⟨0, [1,2,2]⟩], UD := [103,104,116,32,116,104,105,110,107] }] := by decide +kernel
-- two segment 7bit
example : ((Sms.NewEncoder [Sms.AsSubmit]).Encode [116,104,105,115,32,105,115,32,97,32,118,101,114,121,32,108,111,110,103,32,109,101,115,115,97,103,101,32,116,104,97,116,32,100,111,101,115,32,110,111,116,32,102,105,116,32,105,110,32,97,32,115,105,110,103,108,101,32,83,77,83,32,109,101,115,115,97,103,101,44,32,97,116,32,108,101,97,115,116,32,105,116,32,119,105,108,108,32,105,102,32,73,32,107,101,101,112,32,97,100,100,105,110,103,32,109,111,114,101,32,116,111,32,105,116,32,97,115,32,49,54,48,32,99,104,97,114,97,99,116,101,114,115,32,105,115,32,109,111,114,101,32,116,104,97,110,32,121,111,117,32,109,105,103,104,116,32,116,104,105,110,107] [Sms.To [49,50,51,52]]).map (·.pdus) = .ok [{ Direction := (1), FirstOctet := 65, MR := 1, PI := 4, DA := { TOA := 145, Addr := [49,50,51,52] }, UDH := [⟨0, [1,2,1]⟩], UD := [116,104,105,115,32,105,115,32,97,32,118,101,114,121,32,108,111,110,103,32,109,101,115,115,97,103,101,32,116,104,97,116,32,100,111,101,115,32,110,111,116,32,102,105,116,32,105,110,32,97,32,115,105,110,103,108,101,32,83,77,83,32,109,101,115,115,97,103,101,44,32,97,116,32,108,101,97,115,116,32,105,116,32,119,105,108,108,32,105,102,32,73,32,107,101,101,112,32,97,100,100,105,110,103,32,109,111,114,101,32,116,111,32,105,116,32,97,115,32,49,54,48,32,99,104,97,114,97,99,116,101,114,115,32,105,115,32,109,111,114,101,32,116,104,97,110,32,121,111,117,32,109,105] }, { Direction := (1), FirstOctet := 65, MR := 2, PI := 4, DA := { TOA := 145, Addr := [49,50,51,52] }, UDH := [⟨0, [1,2,2]⟩], UD := [103,104,116,32,116,104,105,110,107] }] := by decide +kernel
-- two segment 7bit with UDH
example : Sms.Encode [116,104,105,115,32,105,115,32,97,32,118,101,114,121,32,108,111,110,103,32,109,101,115,115,97,103,101,32,116,104,97,116,32,100,111,101,115,32,110,111,116,32,102,105,116,32,105,110,32,97,32,115,105,110,103,108,101,32,83,77,83,32,109,101,115,115,97,103,101,44,32,97,116,32,108,101,97,115,116,32,105,116,32,119,105,108,108,32,105,102,32,73,32,107,101,101,112,32,97,100,100,105,110,103,32,109,111,114,101,32,116,111,32,105,116,32,97,115,32,49,54,48,32,99,104,97,114,97,99,116,101,114,115,32,105,115,32,109,111,114,101,32,116,104,97,110,32,121,111,117,32,109,105,103,104,116,32,116,104,105,110,107] [Sms.To [49,50,51,52], .templateOption (.udh [⟨3, [1,2,3]⟩])] = .ok [{ Direction := (1), FirstOctet := 65, MR := 1, PI := 4, DA := { TOA := 145, Addr := [49,50,51,52] }, UDH := [⟨3, [1,2,3]⟩, ⟨0, [1,2,1]⟩], UD := [116,104,105,115,32,105,115,32,97,32,118,101,114,121,32,108,111,110,103,32,109,101,115,115,97,103,101,32,116,104,97,116,32,100,111,101,115,32,110,111,116,32,102,105,116,32,105,110,32,97,32,115,105,110,103,108,101,32,83,77,83,32,109,101,115,115,97,103,101,44,32,97,116,32,108,101,97,115,116,32,105,116,32,119,105,108,108,32,105,102,32,73,32,107,101,101,112,32,97,100,100,105,110,103,32,109,111,114,101,32,116,111,32,105,116,32,97,115,32,49,54,48,32,99,104,97,114,97,99,116,101,114,115,32,105,115,32,109,111,114,101,32,116,104,97,110,32] }, { Direction := (1), FirstOctet := 65, MR := 2, PI := 4, DA := { TOA := 145, Addr := [49,50,51,52] }, UDH := [⟨3, [1,2,3]⟩, ⟨0, [1,2,2]⟩], UD := [121,111,117,32,109,105,103,104,116,32,116,104,105,110,107] }] := by decide +kernel
-- two segment 7bit with UDH
example : ((Sms.NewEncoder [Sms.AsSubmit]).Encode [116,104,105,115,32,105,115,32,97,32,118,101,114,121,32,108,111,110,103,32,109,101,115,115,97,103,101,32,116,104,97,116,32,100,111,101,115,32,110,111,116,32,102,105,116,32,105,110,32,97,32,115,105,110,103,108,101,32,83,77,83,32,109,101,115,115,97,103,101,44,32,97,116,32,108,101,97,115,116,32,105,116,32,119,105,108,108,32,105,102,32,73,32,107,101,101,112,32,97,100,100,105,110,103,32,109,111,114,101,32,116,111,32,105,116,32,97,115,32,49,54,48,32,99,104,97,114,97,99,116,101,114,115,32,105,115,32,109,111,114,101,32,116,104,97,110,32,121,111,117,32,109,105,103,104,116,32,116,104,105,110,107] [Sms.To [49,50,51,52], .templateOption (.udh [⟨3, [1,2,3]⟩])]).map (·.pdus) = .ok [{ Direction := (1), FirstOctet := 65, MR := 1, PI := 4, DA := { TOA := 145, Addr := [49,50,51,52] }, UDH := [⟨3, [1,2,3]⟩, ⟨0, [1,2,1]⟩], UD := [116,104,105,115,32,105,115,32,97,32,118,101,114,121,32,108,111,110,103,32,109,101,115,115,97,103,101,32,116,104,97,116,32,100,111,101,115,32,110,111,116,32,102,105,116,32,105,110,32,97,32,115,105,110,103,108,101,32,83,77,83,32,109,101,115,115,97,103,101,44,32,97,116,32,108,101,97,115,116,32,105,116,32,119,105,108,108,32,105,102,32,73,32,107,101,101,112,32,97,100,100,105,110,103,32,109,111,114,101,32,116,111,32,105,116,32,97,115,32,49,54,48,32,99,104,97,114,97,99,116,101,114,115,32,105,115,32,109,111,114,101,32,116,104,97,110,32] }, { Direction := (1), FirstOctet := 65, MR := 2, PI := 4, DA := { TOA := 145, Addr := [49,50,51,52] }, UDH := [⟨3, [1,2,3]⟩, ⟨0, [1,2,2]⟩], UD := [121,111,117,32,109,105,103,104,116,32,116,104,105,110,107] }] := by decide +kernel
-- two segment 7bit with template
example : Sms.Encode [116,104,105,115,32,105,115,32,97,32,118,101,114,121,32,108,111,110,103,32,109,101,115,115,97,103,101,32,116,104,97,116,32,100,111,101,115,32,110,111,116,32,102,105,116,32,105,110,32,97,32,115,105,110,103,108,101,32,83,77,83,32,109,101,115,115,97,103,101,44,32,97,116,32,108,101,97,115,116,32,105,116,32,119,105,108,108,32,105,102,32,73,32,107,101,101,112,32,97,100,100,105,110,103,32,109,111,114,101,32,116,111,32,105,116,32,97,115,32,49,54,48,32,99,104,97,114,97,99,116,101,114,115,32,105,115,32,109,111,114,101,32,116,104,97,110,32,121,111,117,32,109,105,103,104,116,32,116,104,105,110,107] [Sms.To [49,50,51,52], .template { DCS := 52, DA := { TOA := 145, Addr := [52,51,50,49] }, UDH := [⟨3, [1,2,3]⟩] }, Sms.AsSubmit] = .ok [{ Direction := (1), FirstOctet := 65, MR := 1, PI := 4, DCS := 52, DA := { TOA := 145, Addr := [52,51,50,49] }, UDH := [⟨3, [1,2,3]⟩, ⟨0, [1,2,1]⟩], UD := [116,104,105,115,32,105,115,32,97,32,118,101,114,121,32,108,111,110,103,32,109,101,115,115,97,103,101,32,116,104,97,116,32,100,111,101,115,32,110,111,116,32,102,105,116,32,105,110,32,97,32,115,105,110,103,108,101,32,83,77,83,32,109,101,115,115,97,103,101,44,32,97,116,32,108,101,97,115,116,32,105,116,32,119,105,108,108,32,105,102,32,73,32,107,101,101,112,32,97,100,100,105,110,103,32,109,111,114,101,32,116,111,32,105,116,32,97,115,32,49,54,48,32,99,104,97,114,97,99] }, { Direction := (1), FirstOctet := 65, MR := 2, PI := 4, DCS := 52, DA := { TOA := 145, Addr := [52,51,50,49] }, UDH := [⟨3, [1,2,3]⟩, ⟨0, [1,2,2]⟩], UD := [116,101,114,115,32,105,115,32,109,111,114,101,32,116,104,97,110,32,121,111,117,32,109,105,103,104,116,32,116,104,105,110,107] }] := by decide +kernel
-- two segment 7bit with template
example : ((Sms.NewEncoder [Sms.AsSubmit]).Encode [116,104,105,115,32,105,115,32,97,32,118,101,114,121,32,108,111,110,103,32,109,101,115,115,97,103,101,32,116,104,97,116,32,100,111,101,115,32,110,111,116,32,102,105,116,32,105,110,32,97,32,115,105,110,103,108,101,32,83,77,83,32,109,101,115,115,97,103,101,44,32,97,116,32,108,101,97,115,116,32,105,116,32,119,105,108,108,32,105,102,32,73,32,107,101,101,112,32,97,100,100,105,110,103,32,109,111,114,101,32,116,111,32,105,116,32,97,115,32,49,54,48,32,99,104,97,114,97,99,116,101,114,115,32,105,115,32,109,111,114,101,32,116,104,97,110,32,121,111,117,32,109,105,103,104,116,32,116,104,105,110,107] [Sms.To [49,50,51,52], .template { DCS := 52, DA := { TOA := 145, Addr := [52,51,50,49] }, UDH := [⟨3, [1,2,3]⟩] }, Sms.AsSubmit]).map (·.pdus) = .ok [{ Direction := (1), FirstOctet := 65, MR := 1, PI := 4, DCS := 52, DA := { TOA := 145, Addr := [52,51,50,49] }, UDH := [⟨3, [1,2,3]⟩, ⟨0, [1,2,1]⟩], UD := [116,104,105,115,32,105,115,32,97,32,118,101,114,121,32,108,111,110,103,32,109,101,115,115,97,103,101,32,116,104,97,116,32,100,111,101,115,32,110,111,116,32,102,105,116,32,105,110,32,97,32,115,105,110,103,108,101,32,83,77,83,32,109,101,115,115,97,103,101,44,32,97,116,32,108,101,97,115,116,32,105,116,32,119,105,108,108,32,105,102,32,73,32,107,101,101,112,32,97,100,100,105,110,103,32,109,111,114,101,32,116,111,32,105,116,32,97,115,32,49,54,48,32,99,104,97,114,97,99] }, { Direction := (1), FirstOctet := 65, MR := 2, PI := 4, DCS := 52, DA := { TOA := 145, Addr := [52,51,50,49] }, UDH := [⟨3, [1,2,3]⟩, ⟨0, [1,2,2]⟩], UD := [116,101,114,115,32,105,115,32,109,111,114,101,32,116,104,97,110,32,121,111,117,32,109,105,103,104,116,32,116,104,105,110,107] }] := by decide +kernel
-- two segment 8bit
example : Sms.Encode [116,104,105,115,32,105,115,32,97,32,118,101,114,121,32,108,111,110,103,32,109,101,115,115,97,103,101,32,116,104,97,116,32,100,111,101,115,32,110,111,116,32,102,105,116,32,105,110,32,97,32,115,105,110,103,108,101,32,83,77,83,32,109,101,115,115,97,103,101,44,32,97,116,32,108,101,97,115,116,32,105,116,32,119,105,108,108,32,105,102,32,73,32,107,101,101,112,32,97,100,100,105,110,103,32,109,111,114,101,32,116,111,32,105,116,32,97,115,32,49,54,48,32,99,104,97,114,97,99,116,101,114,115,32,105,115,32,109,111,114,101,32,116,104,97,110,32,121,111,117,32,109,105,103,104,116,32,116,104,105,110,107] [Sms.To [49,50,51,52], Sms.As8Bit] = .ok [{ Direction := (1), FirstOctet := 65, MR := 1, DCS := 4, PI := 6, DA := { TOA := 145, Addr := [49,50,51,52] }, UDH := [⟨0, [1,2,1]⟩], UD := [116,104,105,115,32,105,115,32,97,32,118,101,114,121,32,108,111,110,103,32,109,101,115,115,97,103,101,32,116,104,97,116,32,100,111,101,115,32,110,111,116,32,102,105,116,32,105,110,32,97,32,115,105,110,103,108,101,32,83,77,83,32,109,101,115,115,97,103,101,44,32,97,116,32,108,101,97,115,116,32,105,116,32,119,105,108,108,32,105,102,32,73,32,107,101,101,112,32,97,100,100,105,110,103,32,109,111,114,101,32,116,111,32,105,116,32,97,115,32,49,54,48,32,99,104,97,114,97,99,116,101,114,115,32] }, { Direction := (1), FirstOctet := 65, MR := 2, DCS := 4, PI := 6, DA := { TOA := 145, Addr := [49,50,51,52] }, UDH := [⟨0, [1,2,2]⟩], UD := [105,115,32,109,111,114,101,32,116,104,97,110,32,121,111,117,32,109,105,103,104,116,32,116,104,105,110,107] }] := by decide +kernel
-- two segment 8bit
example : ((Sms.NewEncoder [Sms.AsSubmit]).Encode [116,104,105,115,32,105,115,32,97,32,118,101,114,121,32,108,111,110,103,32,109,101,115,115,97,103,101,32,116,104,97,116,32,100,111,101,115,32,110,111,116,32,102,105,116,32,105,110,32,97,32,115,105,110,103,108,101,32,83,77,83,32,109,101,115,115,97,103,101,44,32,97,116,32,108,101,97,115,116,32,105,116,32,119,105,108,108,32,105,102,32,73,32,107,101,101,112,32,97,100,100,105,110,103,32,109,111,114,101,32,116,111,32,105,116,32,97,115,32,49,54,48,32,99,104,97,114,97,99,116,101,114,115,32,105,115,32,109,111,114,101,32,116,104,97,110,32,121,111,117,32,109,105,103,104,116,32,116,104,105,110,107] [Sms.To [49,50,51,52], Sms.As8Bit]).map (·.pdus) = .ok [{ Direction := (1), FirstOctet := 65, MR := 1, DCS := 4, PI := 6, DA := { TOA := 145, Addr := [49,50,51,52] }, UDH := [⟨0, [1,2,1]⟩], UD := [116,104,105,115,32,105,115,32,97,32,118,101,114,121,32,108,111,110,103,32,109,101,115,115,97,103,101,32,116,104,97,116,32,100,111,101,115,32,110,111,116,32,102,105,116,32,105,110,32,97,32,115,105,110,103,108,101,32,83,77,83,32,109,101,115,115,97,103,101,44,32,97,116,32,108,101,97,115,116,32,105,116,32,119,105,108,108,32,105,102,32,73,32,107,101,101,112,32,97,100,100,105,110,103,32,109,111,114,101,32,116,111,32,105,116,32,97,115,32,49,54,48,32,99,104,97,114,97,99,116,101,114,115,32] }, { Direction := (1), FirstOctet := 65, MR := 2, DCS := 4, PI := 6, DA := { TOA := 145, Addr := [49,50,51,52] }, UDH := [⟨0, [1,2,2]⟩], UD := [105,115,32,109,111,114,101,32,116,104,97,110,32,121,111,117,32,109,105,103,104,116,32,116,104,105,110,107] }] := by decide +kernel
-- deliver two segment 7bit
example : Sms.Encode [116,104,105,115,32,105,115,32,97,32,118,101,114,121,32,108,111,110,103,32,109,101,115,115,97,103,101,32,116,104,97,116,32,100,111,101,115,32,110,111,116,32,102,105,116,32,105,110,32,97,32,115,105,110,103,108,101,32,83,77,83,32,109,101,115,115,97,103,101,44,32,97,116,32,108,101,97,115,116,32,105,116,32,119,105,108,108,32,105,102,32,73,32,107,101,101,112,32,97,100,100,105,110,103,32,109,111,114,101,32,116,111,32,105,116,32,97,115,32,49,54,48,32,99,104,97,114,97,99,116,101,114,115,32,105,115,32,109,111,114,101,32,116,104,97,110,32,121,111,117,32,109,105,103,104,116,32,116,104,105,110,107] [Sms.AsDeliver, Sms.From [49,50,51,52]] = .ok [{ FirstOctet := 64, MR := 1, PI := 4, OA := { TOA := 145, Addr := [49,50,51,52] }, UDH := [⟨0, [1,2,1]⟩], UD := [116,104,105,115,32,105,115,32,97,32,118,101,114,121,32,108,111,110,103,32,109,101,115,115,97,103,101,32,116,104,97,116,32,100,111,101,115,32,110,111,116,32,102,105,116,32,105,110,32,97,32,115,105,110,103,108,101,32,83,77,83,32,109,101,115,115,97,103,101,44,32,97,116,32,108,101,97,115,116,32,105,116,32,119,105,108,108,32,105,102,32,73,32,107,101,101,112,32,97,100,100,105,110,103,32,109,111,114,101,32,116,111,32,105,116,32,97,115,32,49,54,48,32,99,104,97,114,97,99,116,101,114,115,32,105,115,32,109,111,114,101,32,116,104,97,110,32,121,111,117,32,109,105] }, { FirstOctet := 64, MR := 2, PI := 4, OA := { TOA := 145, Addr := [49,50,51,52] }, UDH := [⟨0, [1,2,2]⟩], UD := [103,104,116,32,116,104,105,110,107] }] := by decide +kernel
-- deliver two segment 7bit
example : ((Sms.NewEncoder [Sms.AsSubmit]).Encode [116,104,105,115,32,105,115,32,97,32,118,101,114,121,32,108,111,110,103,32,109,101,115,115,97,103,101,32,116,104,97,116,32,100,111,101,115,32,110,111,116,32,102,105,116,32,105,110,32,97,32,115,105,110,103,108,101,32,83,77,83,32,109,101,115,115,97,103,101,44,32,97,116,32,108,101,97,115,116,32,105,116,32,119,105,108,108,32,105,102,32,73,32,107,101,101,112,32,97,100,100,105,110,103,32,109,111,114,101,32,116,111,32,105,116,32,97,115,32,49,54,48,32,99,104,97,114,97,99,116,101,114,115,32,105,115,32,109,111,114,101,32,116,104,97,110,32,121,111,117,32,109,105,103,104,116,32,116,104,105,110,107] [Sms.AsDeliver, Sms.From [49,50,51,52]]).map (·.pdus) = .ok [{ FirstOctet := 64, MR := 1, PI := 4, OA := { TOA := 145, Addr := [49,50,51,52] }, UDH := [⟨0, [1,2,1]⟩], UD := [116,104,105,115,32,105,115,32,97,32,118,101,114,121,32,108,111,110,103,32,109,101,115,115,97,103,101,32,116,104,97,116,32,100,111,101,115,32,110,111,116,32,102,105,116,32,105,110,32,97,32,115,105,110,103,108,101,32,83,77,83,32,109,101,115,115,97,103,101,44,32,97,116,32,108,101,97,115,116,32,105,116,32,119,105,108,108,32,105,102,32,73,32,107,101,101,112,32,97,100,100,105,110,103,32,109,111,114,101,32,116,111,32,105,116,32,97,115,32,49,54,48,32,99,104,97,114,97,99,116,101,114,115,32,105,115,32,109,111,114,101,32,116,104,97,110,32,121,111,117,32,109,105] }, { FirstOctet := 64, MR := 2, PI := 4, OA := { TOA := 145, Addr := [49,50,51,52] }, UDH := [⟨0, [1,2,2]⟩], UD := [103,104,116,32,116,104,105,110,107] }] := by decide +kernel

/-! cmd/smscounter/smscounter_test.go, TestNewCount. -/

-- std
example : SmsCounter.NewCount [99,111,110,116,101,110,116,32,111,102,32,116,104,101,32,83,77,83] (0) = .ok ⟨"7BIT", 1, 18, 18, 160, 142⟩ := by decide +kernel
-- grin
example : SmsCounter.NewCount [104,101,108,108,111,32,240,159,152,129] (0) = .ok ⟨"UCS-2", 1, 8, 8, 70, 62⟩ := by decide +kernel
-- urdu locking
example : SmsCounter.NewCount [104,105,32,216,170] (13) = .ok ⟨"7BIT", 1, 4, 4, 155, 151⟩ := by decide +kernel
-- urdu extended
example : SmsCounter.NewCount [104,105,32,216,142] (13) = .ok ⟨"7BIT_EX", 1, 5, 5, 155, 150⟩ := by decide +kernel
-- urdu locking and extended
example : SmsCounter.NewCount [104,105,32,216,170,216,142] (13) = .ok ⟨"7BIT_EX", 1, 6, 6, 152, 146⟩ := by decide +kernel

/-! cmd/smsdecode/smsdecode_test.go, TestDecode. -/

-- invalid hex
example : (SmsDecode.decode [98,97,100,32,104,101,120] false false).map (·.1) = .error (.err (.hexInvalidByte 32)) := by decide +kernel
-- decode fail
example : (SmsDecode.decode [48,49,48,48,48,53,57,49,50,49,52,51,102,53,48,48,48,48,48,98,99,56,51,50,57,98,102,100,48,54,100,100,100,102,55,50,51,54] false true).map (·.1) = .error (.err (.decode "SmsSubmit.ud.sm" 10 .underflow)) := by decide +kernel
-- pdumode decode fail
example : (SmsDecode.decode [48,55,57,49,49,54,49,52,50,50,48,57,57,49] true true).map (·.1) = .error (.err (.decode "addr" 2 .underflow)) := by decide +kernel
-- submit
example : (SmsDecode.decode [48,49,48,48,48,53,57,49,50,49,52,51,102,53,48,48,48,48,48,98,99,56,51,50,57,98,102,100,48,54,100,100,100,102,55,50,51,54,49,57] false true).map (·.1) = .ok { Direction := (1), FirstOctet := 1, DA := { TOA := 145, Addr := [49,50,51,52,53] }, UD := [72,101,108,108,111,32,119,111,114,108,100] } := by decide +kernel
-- submit pdumode
example : (SmsDecode.decode [48,55,57,49,49,54,49,52,50,50,48,57,57,49,102,49,48,49,48,48,48,53,57,49,50,49,52,51,102,53,48,48,48,48,48,98,99,56,51,50,57,98,102,100,48,54,100,100,100,102,55,50,51,54,49,57] true true).map (·.1) = .ok { Direction := (1), FirstOctet := 1, DA := { TOA := 145, Addr := [49,50,51,52,53] }, UD := [72,101,108,108,111,32,119,111,114,108,100] } := by decide +kernel

end Verif.Vectors
