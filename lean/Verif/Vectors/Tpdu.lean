import Verif.Model.Cmd
import Verif.Model.Counter

/-!
The test tables of /repo, evaluated in the model.  Generated by tools/gen_vectors.py; do not edit.  These are
tests of the model's faithfulness: no claim of the manifest rests on them.
-/

namespace Verif.Vectors
open Verif.Model

/-! encoding/tpdu/tpdu_test.go, TestMarshalBinary. -/

-- unsupported SMS type
example : ({ Direction := (1), FirstOctet := 3 } : TPDU).MarshalBinary = .error (.err (.unsupportedSmsType 7)) := by decide +kernel
-- SmsCommand full
example : ({ Direction := (1), FirstOctet := 2, PID := 171, UD := [97,32,99,111,109,109,97,110,100], MR := 66, CT := 137, MN := 52, DA := { TOA := 145, Addr := [54,51,57,49] } } : TPDU).MarshalBinary = .ok [2,66,171,137,52,4,145,54,25,9,97,32,99,111,109,109,97,110,100] := by decide +kernel
-- SmsCommand bad da
example : ({ Direction := (1), FirstOctet := 2, PID := 171, UD := [97,32,99,111,109,109,97,110,100], MR := 66, CT := 137, MN := 52, DA := { TOA := 145, Addr := [100,51,57,49] } } : TPDU).MarshalBinary = .error (.err (.encode "SmsCommand.da.addr" (.semiInvalidDigit 100))) := by decide +kernel
-- SmsDeliver haha
example : ({ Direction := (0), FirstOctet := 4, UD := [72,97,104,97,104,97,104,97], OA := { TOA := 145, Addr := [54,51,57,49] }, SCTS := GoTime.date (2015) (5) (17) (23) (2) (50) (28800) } : TPDU).MarshalBinary = .ok [4,4,145,54,25,0,0,81,80,113,50,32,5,35,8,200,48,58,140,14,163,195] := by decide +kernel
-- SmsDeliver bad oa
example : ({ Direction := (0), FirstOctet := 4, UD := [72,97,104,97,104,97,104,97], OA := { TOA := 145, Addr := [100,51,57,49] }, SCTS := GoTime.date (2015) (5) (17) (23) (2) (50) (28800) } : TPDU).MarshalBinary = .error (.err (.encode "SmsDeliver.oa.addr" (.semiInvalidDigit 100))) := by decide +kernel
-- SmsDeliver bad scts
example : ({ Direction := (0), FirstOctet := 4, UD := [72,97,104,97,104,97,104,97], OA := { TOA := 145, Addr := [54,51,57,49] }, SCTS := GoTime.date (2015) (5) (17) (23) (2) (50) (86400) } : TPDU).MarshalBinary = .error (.err (.encode "SmsDeliver.scts" (.bcdInvalidInteger (96)))) := by decide +kernel
-- SmsDeliver bad ud
example : ({ Direction := (0), FirstOctet := 4, DCS := 128, UD := [72,97,104,97,104,97,104,97], OA := { TOA := 145, Addr := [54,51,57,49] }, SCTS := GoTime.date (2015) (5) (17) (23) (2) (50) (28800) } : TPDU).MarshalBinary = .error (.err (.encode "SmsDeliver.ud.alphabet" .invalid)) := by decide +kernel
-- SmsDeliverReport minimal
example : ({ Direction := (1), FirstOctet := 0, FCS := 18 } : TPDU).MarshalBinary = .ok [0,18,0] := by decide +kernel
-- SmsDeliverReport pid
example : ({ Direction := (1), FirstOctet := 0, PID := 171, DCS := 4, UD := [114,101,112,111,114,116], FCS := 18, PI := 1 } : TPDU).MarshalBinary = .ok [0,18,1,171] := by decide +kernel
-- SmsDeliverReport dcs
example : ({ Direction := (1), FirstOctet := 0, PID := 171, DCS := 4, UD := [114,101,112,111,114,116], FCS := 18, PI := 2 } : TPDU).MarshalBinary = .ok [0,18,2,4] := by decide +kernel
-- SmsDeliverReport ud
example : ({ Direction := (1), FirstOctet := 0, PID := 171, DCS := 4, UD := [114,101,112,111,114,116], FCS := 18, PI := 4 } : TPDU).MarshalBinary = .ok [0,18,4,6,114,101,112,111,114,116] := by decide +kernel
-- SmsDeliverReport full
example : ({ Direction := (1), FirstOctet := 0, PID := 171, DCS := 4, UD := [114,101,112,111,114,116], FCS := 18, PI := 7 } : TPDU).MarshalBinary = .ok [0,18,7,171,4,6,114,101,112,111,114,116] := by decide +kernel
-- SmsDeliverReport bad ud
example : ({ Direction := (1), FirstOctet := 0, DCS := 128, UD := [114,101,112,111,114,116], FCS := 18, PI := 6 } : TPDU).MarshalBinary = .error (.err (.encode "SmsDeliverReport.ud.alphabet" .invalid)) := by decide +kernel
-- SmsStatusReport minimal
example : ({ Direction := (0), FirstOctet := 2, MR := 66, RA := { TOA := 145, Addr := [54,51,57,49] }, SCTS := GoTime.date (2015) (5) (17) (23) (2) (50) (28800), DT := GoTime.date (2015) (4) (18) (23) (2) (50) (21600), ST := 171 } : TPDU).MarshalBinary = .ok [2,66,4,145,54,25,81,80,113,50,32,5,35,81,64,129,50,32,5,66,171] := by decide +kernel
-- SmsStatusReport full
example : ({ Direction := (0), FirstOctet := 6, PID := 137, DCS := 4, UD := [114,101,112,111,114,116], MR := 66, PI := 7, RA := { TOA := 145, Addr := [54,51,57,49] }, SCTS := GoTime.date (2015) (5) (17) (23) (2) (50) (28800), DT := GoTime.date (2015) (4) (18) (23) (2) (50) (21600), ST := 171 } : TPDU).MarshalBinary = .ok [6,66,4,145,54,25,81,80,113,50,32,5,35,81,64,129,50,32,5,66,171,7,137,4,6,114,101,112,111,114,116] := by decide +kernel
-- SmsStatusReport pidless
example : ({ Direction := (0), FirstOctet := 6, PID := 137, DCS := 4, UD := [114,101,112,111,114,116], MR := 66, PI := 6, RA := { TOA := 145, Addr := [54,51,57,49] }, SCTS := GoTime.date (2015) (5) (17) (23) (2) (50) (28800), DT := GoTime.date (2015) (4) (18) (23) (2) (50) (21600), ST := 171 } : TPDU).MarshalBinary = .ok [6,66,4,145,54,25,81,80,113,50,32,5,35,81,64,129,50,32,5,66,171,6,4,6,114,101,112,111,114,116] := by decide +kernel
-- SmsStatusReport dcsless
example : ({ Direction := (0), FirstOctet := 6, PID := 137, DCS := 4, UD := [114,101,112,111,114,116], MR := 66, PI := 5, RA := { TOA := 145, Addr := [54,51,57,49] }, SCTS := GoTime.date (2015) (5) (17) (23) (2) (50) (28800), DT := GoTime.date (2015) (4) (18) (23) (2) (50) (21600), ST := 171 } : TPDU).MarshalBinary = .ok [6,66,4,145,54,25,81,80,113,50,32,5,35,81,64,129,50,32,5,66,171,5,137,6,114,101,112,111,114,116] := by decide +kernel
-- SmsStatusReport bad ra
example : ({ Direction := (0), FirstOctet := 2, MR := 66, RA := { TOA := 145, Addr := [54,51,100,49] } } : TPDU).MarshalBinary = .error (.err (.encode "SmsStatusReport.ra.addr" (.semiInvalidDigit 100))) := by decide +kernel
-- SmsStatusReport bad scts
example : ({ Direction := (0), FirstOctet := 2, MR := 66, RA := { TOA := 145, Addr := [54,51,57,49] }, SCTS := GoTime.date (2015) (5) (17) (23) (2) (50) (86400), DT := GoTime.date (2015) (4) (18) (23) (2) (50) (21600), ST := 171 } : TPDU).MarshalBinary = .error (.err (.encode "SmsStatusReport.scts" (.bcdInvalidInteger (96)))) := by decide +kernel
-- SmsStatusReport bad dt
example : ({ Direction := (0), FirstOctet := 2, MR := 66, RA := { TOA := 145, Addr := [54,51,57,49] }, SCTS := GoTime.date (2015) (5) (17) (23) (2) (50) (28800), DT := GoTime.date (2015) (4) (18) (23) (2) (50) (86400), ST := 171 } : TPDU).MarshalBinary = .error (.err (.encode "SmsStatusReport.dt" (.bcdInvalidInteger (96)))) := by decide +kernel
-- SmsStatusReport bad ud
example : ({ Direction := (0), FirstOctet := 2, DCS := 128, UD := [114,101,112,111,114,116], PI := 6 } : TPDU).MarshalBinary = .error (.err (.encode "SmsStatusReport.ud.alphabet" .invalid)) := by decide +kernel
-- SmsSubmit haha
example : ({ Direction := (1), FirstOctet := 1, UD := [72,97,104,97,104,97,104,97], DA := { TOA := 145, Addr := [54,51,57,49] } } : TPDU).MarshalBinary = .ok [1,0,4,145,54,25,0,0,8,200,48,58,140,14,163,195] := by decide +kernel
-- SmsSubmit vp
example : ({ Direction := (1), FirstOctet := 1, UD := [72,97,104,97,104,97,104,97], DA := { TOA := 145, Addr := [54,51,57,49] }, VP := { Format := 2, Duration := (6000000000000) } } : TPDU).MarshalBinary = .ok [1,0,4,145,54,25,0,0,19,8,200,48,58,140,14,163,195] := by decide +kernel
-- SmsSubmit bad da
example : ({ Direction := (1), FirstOctet := 1, UD := [72,97,104,97,104,97,104,97], DA := { TOA := 145, Addr := [100,51,57,49] } } : TPDU).MarshalBinary = .error (.err (.encode "SmsSubmit.da.addr" (.semiInvalidDigit 100))) := by decide +kernel
-- SmsSubmit bad vp
example : ({ Direction := (1), FirstOctet := 1, UD := [72,97,104,97,104,97,104,97], DA := { TOA := 145, Addr := [54,51,57,49] }, VP := { Format := 6 } } : TPDU).MarshalBinary = .error (.err (.encode "SmsSubmit.vp.vpf" .invalid)) := by decide +kernel
-- SmsSubmit bad ud
example : ({ Direction := (1), FirstOctet := 1, DCS := 128, UD := [72,97,104,97,104,97,104,97], DA := { TOA := 145, Addr := [54,51,57,49] } } : TPDU).MarshalBinary = .error (.err (.encode "SmsSubmit.ud.alphabet" .invalid)) := by decide +kernel
-- SmsSubmitReport minimal
example : ({ Direction := (0), FirstOctet := 1, FCS := 18, SCTS := GoTime.date (2015) (5) (17) (23) (2) (50) (28800) } : TPDU).MarshalBinary = .ok [1,18,0,81,80,113,50,32,5,35] := by decide +kernel
-- SmsSubmitReport pi
example : ({ Direction := (0), FirstOctet := 1, PID := 171, DCS := 4, UD := [114,101,112,111,114,116], FCS := 18, PI := 1, SCTS := GoTime.date (2015) (5) (17) (23) (2) (50) (28800) } : TPDU).MarshalBinary = .ok [1,18,1,81,80,113,50,32,5,35,171] := by decide +kernel
-- SmsSubmitReport dcs
example : ({ Direction := (0), FirstOctet := 1, PID := 171, DCS := 4, UD := [114,101,112,111,114,116], FCS := 18, PI := 2, SCTS := GoTime.date (2015) (5) (17) (23) (2) (50) (28800) } : TPDU).MarshalBinary = .ok [1,18,2,81,80,113,50,32,5,35,4] := by decide +kernel
-- SmsSubmitReport ud
example : ({ Direction := (0), FirstOctet := 1, PID := 171, DCS := 4, UD := [114,101,112,111,114,116], FCS := 18, PI := 4, SCTS := GoTime.date (2015) (5) (17) (23) (2) (50) (28800) } : TPDU).MarshalBinary = .ok [1,18,4,81,80,113,50,32,5,35,6,114,101,112,111,114,116] := by decide +kernel
-- SmsSubmitReport full
example : ({ Direction := (0), FirstOctet := 1, PID := 171, DCS := 4, UD := [114,101,112,111,114,116], FCS := 18, PI := 7, SCTS := GoTime.date (2015) (5) (17) (23) (2) (50) (28800) } : TPDU).MarshalBinary = .ok [1,18,7,81,80,113,50,32,5,35,171,4,6,114,101,112,111,114,116] := by decide +kernel
-- SmsSubmitReport bad scts
example : ({ Direction := (0), FirstOctet := 1, DCS := 128, UD := [114,101,112,111,114,116], FCS := 18, PI := 7, SCTS := GoTime.date (2015) (5) (17) (23) (2) (50) (86400) } : TPDU).MarshalBinary = .error (.err (.encode "SmsSubmitReport.scts" (.bcdInvalidInteger (96)))) := by decide +kernel
-- SmsSubmitReport bad ud
example : ({ Direction := (0), FirstOctet := 1, DCS := 128, UD := [114,101,112,111,114,116], FCS := 18, PI := 6 } : TPDU).MarshalBinary = .error (.err (.encode "SmsSubmitReport.ud.alphabet" .invalid)) := by decide +kernel

/-! encoding/tpdu/tpdu_test.go, TestUnmarshalBinary. -/

-- underflow fo
example : ({ Direction := (0) } : TPDU).UnmarshalBinary [] = .error (.err (.decode "tpdu.firstOctet" 0 .underflow)) := by decide +kernel
-- unsupported SMS type
example : ({ Direction := (0) } : TPDU).UnmarshalBinary [3] = .error (.err (.decode "tpdu.firstOctet" 0 (.unsupportedSmsType 6))) := by decide +kernel
-- SmsCommand
example : ({ Direction := (1) } : TPDU).UnmarshalBinary [2,66,171,137,52,4,145,54,25,9,97,32,99,111,109,109,97,110,100] = .ok { Direction := (1), FirstOctet := 2, DCS := 4, PID := 171, UD := [97,32,99,111,109,109,97,110,100], MR := 66, CT := 137, MN := 52, DA := { TOA := 145, Addr := [54,51,57,49] } } := by decide +kernel
-- SmsCommand underflow mr
example : ({ Direction := (1) } : TPDU).UnmarshalBinary [2] = .error (.err (.decode "SmsCommand.mr" 1 .underflow)) := by decide +kernel
-- SmsCommand underflow pid
example : ({ Direction := (1) } : TPDU).UnmarshalBinary [2,66] = .error (.err (.decode "SmsCommand.pid" 2 .underflow)) := by decide +kernel
-- SmsCommand underflow ct
example : ({ Direction := (1) } : TPDU).UnmarshalBinary [2,66,171] = .error (.err (.decode "SmsCommand.ct" 3 .underflow)) := by decide +kernel
-- SmsCommand underflow mn
example : ({ Direction := (1) } : TPDU).UnmarshalBinary [2,66,171,137] = .error (.err (.decode "SmsCommand.mn" 4 .underflow)) := by decide +kernel
-- SmsCommand underflow da
example : ({ Direction := (1) } : TPDU).UnmarshalBinary [2,66,171,137,52,4,145,54,249,9] = .error (.err (.decode "SmsCommand.da.addr" 7 .underflow)) := by decide +kernel
-- SmsCommand underflow ud
example : ({ Direction := (1) } : TPDU).UnmarshalBinary [2,66,171,137,52,4,145,54,25] = .error (.err (.decode "SmsCommand.ud.udl" 9 .underflow)) := by decide +kernel
-- SmsDeliver haha
example : ({ Direction := (0) } : TPDU).UnmarshalBinary [4,4,145,54,25,0,0,81,80,113,50,32,5,35,8,200,48,58,140,14,163,195] = .ok { Direction := (0), FirstOctet := 4, UD := [72,97,104,97,104,97,104,97], OA := { TOA := 145, Addr := [54,51,57,49] }, SCTS := GoTime.date (2015) (5) (17) (23) (2) (50) (28800) } := by decide +kernel
-- SmsDeliver underflow oa
example : ({ Direction := (0) } : TPDU).UnmarshalBinary [4,4,145,54,249,0,0] = .error (.err (.decode "SmsDeliver.oa.addr" 3 .underflow)) := by decide +kernel
-- SmsDeliver underflow pid
example : ({ Direction := (0) } : TPDU).UnmarshalBinary [4,4,145,54,25] = .error (.err (.decode "SmsDeliver.pid" 5 .underflow)) := by decide +kernel
-- SmsDeliver underflow dcs
example : ({ Direction := (0) } : TPDU).UnmarshalBinary [4,4,145,54,25,0] = .error (.err (.decode "SmsDeliver.dcs" 6 .underflow)) := by decide +kernel
-- SmsDeliver underflow scts
example : ({ Direction := (0) } : TPDU).UnmarshalBinary [4,4,145,54,25,0,0,81] = .error (.err (.decode "SmsDeliver.scts" 7 .underflow)) := by decide +kernel
-- SmsDeliver bad scts
example : ({ Direction := (0) } : TPDU).UnmarshalBinary [4,4,145,54,25,0,0,81,80,241,50,32,5,35] = .error (.err (.decode "SmsDeliver.scts" 7 (.bcdInvalidOctet 241))) := by decide +kernel
-- SmsDeliver underflow ud
example : ({ Direction := (0) } : TPDU).UnmarshalBinary [4,4,145,54,25,0,0,81,80,113,50,32,5,35,8] = .error (.err (.decode "SmsDeliver.ud.sm" 15 .underflow)) := by decide +kernel
-- SmsDeliverReport minimal
example : ({ Direction := (1) } : TPDU).UnmarshalBinary [0,18,0] = .ok { Direction := (1), FirstOctet := 0, FCS := 18 } := by decide +kernel
-- SmsDeliverReport pid
example : ({ Direction := (1) } : TPDU).UnmarshalBinary [0,18,1,171] = .ok { Direction := (1), FirstOctet := 0, PID := 171, FCS := 18, PI := 1 } := by decide +kernel
-- SmsDeliverReport dcs
example : ({ Direction := (1) } : TPDU).UnmarshalBinary [0,18,2,4] = .ok { Direction := (1), FirstOctet := 0, DCS := 4, FCS := 18, PI := 2 } := by decide +kernel
-- SmsDeliverReport ud
example : ({ Direction := (1) } : TPDU).UnmarshalBinary [0,18,6,4,6,114,101,112,111,114,116] = .ok { Direction := (1), FirstOctet := 0, DCS := 4, UD := [114,101,112,111,114,116], FCS := 18, PI := 6 } := by decide +kernel
-- SmsDeliverReport underflow fcs
example : ({ Direction := (1) } : TPDU).UnmarshalBinary [0] = .error (.err (.decode "SmsDeliverReport.fcs" 1 .underflow)) := by decide +kernel
-- SmsDeliverReport underflow pi
example : ({ Direction := (1) } : TPDU).UnmarshalBinary [0,18] = .error (.err (.decode "SmsDeliverReport.pi" 2 .underflow)) := by decide +kernel
-- SmsDeliverReport underflow pid
example : ({ Direction := (1) } : TPDU).UnmarshalBinary [0,18,1] = .error (.err (.decode "SmsDeliverReport.pid" 3 .underflow)) := by decide +kernel
-- SmsDeliverReport underflow dcs
example : ({ Direction := (1) } : TPDU).UnmarshalBinary [0,18,2] = .error (.err (.decode "SmsDeliverReport.dcs" 3 .underflow)) := by decide +kernel
-- SmsDeliverReport underflow ud
example : ({ Direction := (1) } : TPDU).UnmarshalBinary [0,18,4] = .error (.err (.decode "SmsDeliverReport.ud.udl" 3 .underflow)) := by decide +kernel
-- SmsStatusReport minimal
example : ({ Direction := (0) } : TPDU).UnmarshalBinary [2,66,4,145,54,25,81,80,113,50,32,5,35,81,64,129,50,32,5,66,171] = .ok { Direction := (0), FirstOctet := 2, MR := 66, RA := { TOA := 145, Addr := [54,51,57,49] }, SCTS := GoTime.date (2015) (5) (17) (23) (2) (50) (28800), DT := GoTime.date (2015) (4) (18) (23) (2) (50) (21600), ST := 171 } := by decide +kernel
-- SmsStatusReport pid
example : ({ Direction := (0) } : TPDU).UnmarshalBinary [2,66,4,145,54,25,81,80,113,50,32,5,35,81,64,129,50,32,5,66,171,1,137] = .ok { Direction := (0), FirstOctet := 2, PID := 137, MR := 66, PI := 1, RA := { TOA := 145, Addr := [54,51,57,49] }, SCTS := GoTime.date (2015) (5) (17) (23) (2) (50) (28800), DT := GoTime.date (2015) (4) (18) (23) (2) (50) (21600), ST := 171 } := by decide +kernel
-- SmsStatusReport dcs
example : ({ Direction := (0) } : TPDU).UnmarshalBinary [2,66,4,145,54,25,81,80,113,50,32,5,35,81,64,129,50,32,5,66,171,2,4] = .ok { Direction := (0), FirstOctet := 2, DCS := 4, MR := 66, PI := 2, RA := { TOA := 145, Addr := [54,51,57,49] }, SCTS := GoTime.date (2015) (5) (17) (23) (2) (50) (28800), DT := GoTime.date (2015) (4) (18) (23) (2) (50) (21600), ST := 171 } := by decide +kernel
-- SmsStatusReport ud
example : ({ Direction := (0) } : TPDU).UnmarshalBinary [2,66,4,145,54,25,81,80,113,50,32,5,35,81,64,129,50,32,5,66,171,6,4,6,114,101,112,111,114,116] = .ok { Direction := (0), FirstOctet := 2, DCS := 4, UD := [114,101,112,111,114,116], MR := 66, PI := 6, RA := { TOA := 145, Addr := [54,51,57,49] }, SCTS := GoTime.date (2015) (5) (17) (23) (2) (50) (28800), DT := GoTime.date (2015) (4) (18) (23) (2) (50) (21600), ST := 171 } := by decide +kernel
-- SmsStatusReport underflow mr
example : ({ Direction := (0) } : TPDU).UnmarshalBinary [2] = .error (.err (.decode "SmsStatusReport.mr" 1 .underflow)) := by decide +kernel
-- SmsStatusReport underflow ra
example : ({ Direction := (0) } : TPDU).UnmarshalBinary [2,66] = .error (.err (.decode "SmsStatusReport.ra.addr" 2 .underflow)) := by decide +kernel
-- SmsStatusReport underflow scts
example : ({ Direction := (0) } : TPDU).UnmarshalBinary [2,66,4,145,54,25] = .error (.err (.decode "SmsStatusReport.scts" 6 .underflow)) := by decide +kernel
-- SmsStatusReport underflow dt
example : ({ Direction := (0) } : TPDU).UnmarshalBinary [2,66,4,145,54,25,81,80,113,50,32,5,35] = .error (.err (.decode "SmsStatusReport.dt" 13 .underflow)) := by decide +kernel
-- SmsStatusReport bad scts
example : ({ Direction := (0) } : TPDU).UnmarshalBinary [2,66,4,145,54,25,81,80,241,50,32,5,35] = .error (.err (.decode "SmsStatusReport.scts" 6 (.bcdInvalidOctet 241))) := by decide +kernel
-- SmsStatusReport bad dt
example : ({ Direction := (0) } : TPDU).UnmarshalBinary [2,66,4,145,54,25,81,80,113,50,32,5,35,81,64,193,50,32,5,66] = .error (.err (.decode "SmsStatusReport.dt" 13 (.bcdInvalidOctet 193))) := by decide +kernel
-- SmsStatusReport underflow st
example : ({ Direction := (0) } : TPDU).UnmarshalBinary [2,66,4,145,54,25,81,80,113,50,32,5,35,81,64,129,50,32,5,66] = .error (.err (.decode "SmsStatusReport.st" 20 .underflow)) := by decide +kernel
-- SmsStatusReport underflow pid
example : ({ Direction := (0) } : TPDU).UnmarshalBinary [2,66,4,145,54,25,81,80,113,50,32,5,35,81,64,129,50,32,5,66,171,1] = .error (.err (.decode "SmsStatusReport.pid" 22 .underflow)) := by decide +kernel
-- SmsStatusReport underflow dcs
example : ({ Direction := (0) } : TPDU).UnmarshalBinary [2,66,4,145,54,25,81,80,113,50,32,5,35,81,64,129,50,32,5,66,171,2] = .error (.err (.decode "SmsStatusReport.dcs" 22 .underflow)) := by decide +kernel
-- SmsStatusReport underflow ud
example : ({ Direction := (0) } : TPDU).UnmarshalBinary [2,66,4,145,54,25,81,80,113,50,32,5,35,81,64,129,50,32,5,66,171,4] = .error (.err (.decode "SmsStatusReport.ud.udl" 22 .underflow)) := by decide +kernel
-- SmsSubmit haha
example : ({ Direction := (1) } : TPDU).UnmarshalBinary [1,35,4,145,54,25,52,0,8,200,48,58,140,14,163,195] = .ok { Direction := (1), FirstOctet := 1, PID := 52, UD := [72,97,104,97,104,97,104,97], MR := 35, DA := { TOA := 145, Addr := [54,51,57,49] } } := by decide +kernel
-- SmsSubmit vp
example : ({ Direction := (1) } : TPDU).UnmarshalBinary [17,35,4,145,54,25,52,0,69,8,200,48,58,140,14,163,195] = .ok { Direction := (1), FirstOctet := 17, PID := 52, UD := [72,97,104,97,104,97,104,97], MR := 35, DA := { TOA := 145, Addr := [54,51,57,49] }, VP := { Format := 2, Duration := (21000000000000) } } := by decide +kernel
-- SmsSubmit underflow mr
example : ({ Direction := (1) } : TPDU).UnmarshalBinary [1] = .error (.err (.decode "SmsSubmit.mr" 1 .underflow)) := by decide +kernel
-- SmsSubmit underflow da
example : ({ Direction := (1) } : TPDU).UnmarshalBinary [1,35] = .error (.err (.decode "SmsSubmit.da.addr" 2 .underflow)) := by decide +kernel
-- SmsSubmit bad da
example : ({ Direction := (1) } : TPDU).UnmarshalBinary [1,35,4,145,54,249,0] = .error (.err (.decode "SmsSubmit.da.addr" 4 .underflow)) := by decide +kernel
-- SmsSubmit underflow pid
example : ({ Direction := (1) } : TPDU).UnmarshalBinary [1,35,4,145,54,25] = .error (.err (.decode "SmsSubmit.pid" 6 .underflow)) := by decide +kernel
-- SmsSubmit underflow dcs
example : ({ Direction := (1) } : TPDU).UnmarshalBinary [1,35,4,145,54,25,0] = .error (.err (.decode "SmsSubmit.dcs" 7 .underflow)) := by decide +kernel
-- SmsSubmit underflow vp
example : ({ Direction := (1) } : TPDU).UnmarshalBinary [17,35,4,145,54,25,52,0] = .error (.err (.decode "SmsSubmit.vp" 8 .underflow)) := by decide +kernel
-- SmsSubmit bad vp
example : ({ Direction := (1) } : TPDU).UnmarshalBinary [25,35,4,145,54,25,52,0,69,8,200,48,58,140,14,163,195] = .error (.err (.decode "SmsSubmit.vp" 8 (.bcdInvalidOctet 200))) := by decide +kernel
-- SmsSubmit underflow ud
example : ({ Direction := (1) } : TPDU).UnmarshalBinary [1,35,4,145,54,25,0,0,81,80,113,50,32,5,35,8] = .error (.err (.decode "SmsSubmit.ud.sm" 9 .underflow)) := by decide +kernel
-- SmsSubmitReport minimal
example : ({ Direction := (0) } : TPDU).UnmarshalBinary [1,18,0,81,80,113,50,32,5,35] = .ok { Direction := (0), FirstOctet := 1, FCS := 18, SCTS := GoTime.date (2015) (5) (17) (23) (2) (50) (28800) } := by decide +kernel
-- SmsSubmitReport pid
example : ({ Direction := (0) } : TPDU).UnmarshalBinary [1,18,1,81,80,113,50,32,5,35,171] = .ok { Direction := (0), FirstOctet := 1, PID := 171, FCS := 18, PI := 1, SCTS := GoTime.date (2015) (5) (17) (23) (2) (50) (28800) } := by decide +kernel
-- SmsSubmitReport dcs
example : ({ Direction := (0) } : TPDU).UnmarshalBinary [1,18,2,81,80,113,50,32,5,35,4] = .ok { Direction := (0), FirstOctet := 1, DCS := 4, FCS := 18, PI := 2, SCTS := GoTime.date (2015) (5) (17) (23) (2) (50) (28800) } := by decide +kernel
-- SmsSubmitReport ud
example : ({ Direction := (0) } : TPDU).UnmarshalBinary [1,18,6,81,80,113,50,32,5,35,4,6,114,101,112,111,114,116] = .ok { Direction := (0), FirstOctet := 1, DCS := 4, UD := [114,101,112,111,114,116], FCS := 18, PI := 6, SCTS := GoTime.date (2015) (5) (17) (23) (2) (50) (28800) } := by decide +kernel
-- SmsSubmitReport underflow fcs
example : ({ Direction := (0) } : TPDU).UnmarshalBinary [1] = .error (.err (.decode "SmsSubmitReport.fcs" 1 .underflow)) := by decide +kernel
-- SmsSubmitReport underflow pi
example : ({ Direction := (0) } : TPDU).UnmarshalBinary [1,18] = .error (.err (.decode "SmsSubmitReport.pi" 2 .underflow)) := by decide +kernel
-- SmsSubmitReport underflow scts
example : ({ Direction := (0) } : TPDU).UnmarshalBinary [1,18,0] = .error (.err (.decode "SmsSubmitReport.scts" 3 .underflow)) := by decide +kernel
-- SmsSubmitReport bad scts
example : ({ Direction := (0) } : TPDU).UnmarshalBinary [1,18,0,81,80,241,50,32,5,35] = .error (.err (.decode "SmsSubmitReport.scts" 3 (.bcdInvalidOctet 241))) := by decide +kernel
-- SmsSubmitReport underflow pid
example : ({ Direction := (0) } : TPDU).UnmarshalBinary [1,18,1,81,80,113,50,32,5,35] = .error (.err (.decode "SmsSubmitReport.pid" 10 .underflow)) := by decide +kernel
-- SmsSubmitReport underflow dcs
example : ({ Direction := (0) } : TPDU).UnmarshalBinary [1,18,2,81,80,113,50,32,5,35] = .error (.err (.decode "SmsSubmitReport.dcs" 10 .underflow)) := by decide +kernel
-- SmsSubmitReport underflow ud
example : ({ Direction := (0) } : TPDU).UnmarshalBinary [1,18,6,81,80,113,50,32,5,35,4] = .error (.err (.decode "SmsSubmitReport.ud.udl" 11 .underflow)) := by decide +kernel

/-! encoding/tpdu/tpdu_test.go, TestConcat. -/

-- empty
example : (TPDU.New [.udh []]).toOption.map TPDU.ConcatInfo = some (none) := by decide +kernel
-- empty data
example : (TPDU.New [.udh [⟨0, []⟩]]).toOption.map TPDU.ConcatInfo = some (none) := by decide +kernel
-- nil data
example : (TPDU.New [.udh [⟨0, []⟩]]).toOption.map TPDU.ConcatInfo = some (none) := by decide +kernel
-- concat8
example : (TPDU.New [.udh [⟨0, [3,2,1]⟩]]).toOption.map TPDU.ConcatInfo = some (some ⟨2, 1, 3⟩) := by decide +kernel
-- id 1
example : (TPDU.New [.udh [⟨1, [3,2,1]⟩]]).toOption.map TPDU.ConcatInfo = some (none) := by decide +kernel
-- concat16
example : (TPDU.New [.udh [⟨8, [4,3,2,1]⟩]]).toOption.map TPDU.ConcatInfo = some (some ⟨2, 1, 1027⟩) := by decide +kernel
-- short concat8
example : (TPDU.New [.udh [⟨0, [2,1]⟩]]).toOption.map TPDU.ConcatInfo = some (none) := by decide +kernel
-- short concat16
example : (TPDU.New [.udh [⟨8, [3,2,1]⟩]]).toOption.map TPDU.ConcatInfo = some (none) := by decide +kernel

/-! encoding/tpdu/tpdu_test.go, TestSmsType. -/

example : ({ Direction := (0), FirstOctet := 0 } : TPDU).SmsType = 0 := by decide +kernel
example : ({ Direction := (0), FirstOctet := 1 } : TPDU).SmsType = 2 := by decide +kernel
example : ({ Direction := (0), FirstOctet := 2 } : TPDU).SmsType = 4 := by decide +kernel
example : ({ Direction := (1), FirstOctet := 0 } : TPDU).SmsType = 1 := by decide +kernel
example : ({ Direction := (1), FirstOctet := 1 } : TPDU).SmsType = 3 := by decide +kernel
example : ({ Direction := (1), FirstOctet := 2 } : TPDU).SmsType = 5 := by decide +kernel

/-! encoding/tpdu/tpdu_test.go, TestSmsTypeString. -/

example : smsTypeString 0 = "SmsDeliver" := by decide +kernel
example : smsTypeString 1 = "SmsDeliverReport" := by decide +kernel
example : smsTypeString 2 = "SmsSubmitReport" := by decide +kernel
example : smsTypeString 3 = "SmsSubmit" := by decide +kernel
example : smsTypeString 4 = "SmsStatusReport" := by decide +kernel
example : smsTypeString 5 = "SmsCommand" := by decide +kernel
example : smsTypeString 6 = "Unknown" := by decide +kernel

/-! encoding/tpdu/tpdu_test.go, TestUDBlockSize. -/

-- command 7bit
example : ({ Direction := (1), FirstOctet := 2 } : TPDU).UDBlockSize = (166) := by decide +kernel
-- command 8bit
example : ({ Direction := (1), FirstOctet := 2, DCS := 244 } : TPDU).UDBlockSize = (146) := by decide +kernel
-- deliver 7bit
example : ({  } : TPDU).UDBlockSize = (160) := by decide +kernel
-- deliver UDH 7bit
example : ({ UDH := [⟨1, [5,6,7]⟩] } : TPDU).UDBlockSize = (153) := by decide +kernel
-- deliver 8bit
example : ({ DCS := 244 } : TPDU).UDBlockSize = (140) := by decide +kernel
-- deliver UDH 8bit
example : ({ DCS := 244, UDH := [⟨1, [5,6,7]⟩] } : TPDU).UDBlockSize = (134) := by decide +kernel
-- deliver UCS2
example : ({ DCS := 224 } : TPDU).UDBlockSize = (140) := by decide +kernel
-- deliverreport RP-ACK 7bit
example : ({ Direction := (1) } : TPDU).UDBlockSize = (181) := by decide +kernel
-- deliverreport RP-ERROR 7bit
example : ({ Direction := (1), FCS := 144 } : TPDU).UDBlockSize = (180) := by decide +kernel
-- deliverreport RP-ACK 8bit
example : ({ Direction := (1), DCS := 244 } : TPDU).UDBlockSize = (159) := by decide +kernel
-- deliverreport RP-ERROR 8bit
example : ({ Direction := (1), DCS := 244, FCS := 144 } : TPDU).UDBlockSize = (158) := by decide +kernel
-- statusreport 7bit
example : ({ FirstOctet := 2 } : TPDU).UDBlockSize = (149) := by decide +kernel
-- statusreport 8bit
example : ({ FirstOctet := 2, DCS := 244 } : TPDU).UDBlockSize = (131) := by decide +kernel
-- statusreport UCS2
example : ({ FirstOctet := 2, DCS := 224 } : TPDU).UDBlockSize = (130) := by decide +kernel
-- submit 7bit
example : ({ Direction := (1), FirstOctet := 1 } : TPDU).UDBlockSize = (160) := by decide +kernel
-- submit 8bit
example : ({ Direction := (1), FirstOctet := 1, DCS := 244 } : TPDU).UDBlockSize = (140) := by decide +kernel
-- submit UCS2
example : ({ Direction := (1), FirstOctet := 1, DCS := 224 } : TPDU).UDBlockSize = (140) := by decide +kernel
-- submitreport RP-ACK 7bit
example : ({ FirstOctet := 1 } : TPDU).UDBlockSize = (173) := by decide +kernel
-- submitreport RP-ERROR 7bit
example : ({ FirstOctet := 1, FCS := 144 } : TPDU).UDBlockSize = (172) := by decide +kernel
-- submitreport RP-ACK 8bit
example : ({ FirstOctet := 1, DCS := 244 } : TPDU).UDBlockSize = (152) := by decide +kernel
-- submitreport RP-ERROR 8bit
example : ({ FirstOctet := 1, DCS := 244, FCS := 144 } : TPDU).UDBlockSize = (151) := by decide +kernel

/-! encoding/tpdu/tpdu_test.go, TestSegment. -/

-- nil msg
example : (({  } : TPDU).Segment [] {}).map (·.pdus) = .ok [] := by decide +kernel
-- empty msg
example : (({  } : TPDU).Segment [] {}).map (·.pdus) = .ok [] := by decide +kernel
-- single segment
example : (({  } : TPDU).Segment [104,101,108,108,111] {}).map (·.pdus) = .ok [{ UD := [104,101,108,108,111] }] := by decide +kernel
-- two segment 7bit
example : (({  } : TPDU).Segment [116,104,105,115,32,105,115,32,97,32,118,101,114,121,32,108,111,110,103,32,109,101,115,115,97,103,101,32,116,104,97,116,32,100,111,101,115,32,110,111,116,32,102,105,116,32,105,110,32,97,32,115,105,110,103,108,101,32,83,77,83,32,109,101,115,115,97,103,101,44,32,97,116,32,108,101,97,115,116,32,105,116,32,119,105,108,108,32,105,102,32,73,32,107,101,101,112,32,97,100,100,105,110,103,32,109,111,114,101,32,116,111,32,105,116,32,97,115,32,49,54,48,32,99,104,97,114,97,99,116,101,114,115,32,105,115,32,109,111,114,101,32,116,104,97,110,32,121,111,117,32,109,105,103,104,116,32,116,104,105,110,107] {}).map (·.pdus) = .ok [{ FirstOctet := 64, PI := 4, UDH := [⟨0, [1,2,1]⟩], UD := [116,104,105,115,32,105,115,32,97,32,118,101,114,121,32,108,111,110,103,32,109,101,115,115,97,103,101,32,116,104,97,116,32,100,111,101,115,32,110,111,116,32,102,105,116,32,105,110,32,97,32,115,105,110,103,108,101,32,83,77,83,32,109,101,115,115,97,103,101,44,32,97,116,32,108,101,97,115,116,32,105,116,32,119,105,108,108,32,105,102,32,73,32,107,101,101,112,32,97,100,100,105,110,103,32,109,111,114,101,32,116,111,32,105,116,32,97,115,32,49,54,48,32,99,104,97,114,97,99,116,101,114,115,32,105,115,32,109,111,114,101,32,116,104,97,110,32,121,111,117,32,109,105] }, { FirstOctet := 64, PI := 4, UDH := [⟨0, [1,2,2]⟩], UD := [103,104,116,32,116,104,105,110,107] }] := by decide +kernel
-- three segment 7bit withMR
example : (({  } : TPDU).Segment [116,104,105,115,32,105,115,32,97,32,118,101,114,121,32,108,111,110,103,32,109,101,115,115,97,103,101,32,116,104,97,116,32,100,111,101,115,32,110,111,116,32,102,105,116,32,105,110,32,97,32,115,105,110,103,108,101,32,83,77,83,32,109,101,115,115,97,103,101,44,32,97,116,32,108,101,97,115,116,32,105,116,32,119,105,108,108,32,105,102,32,73,32,107,101,101,112,32,97,100,100,105,110,103,32,109,111,114,101,32,116,111,32,105,116,32,97,115,32,49,54,48,32,99,104,97,114,97,99,116,101,114,115,32,105,115,32,109,111,114,101,32,116,104,97,110,32,121,111,117,32,109,105,103,104,116,32,116,104,105,110,107,44,32,98,117,116,32,119,97,105,116,44,32,116,104,101,110,32,119,101,32,97,108,115,111,32,110,101,101,100,32,97,32,114,101,97,108,108,121,32,114,101,97,108,108,121,32,108,111,110,103,32,109,101,115,115,97,103,101,32,116,111,32,116,114,105,103,103,101,114,32,97,32,116,104,114,101,101,32,115,101,103,109,101,110,116,32,99,111,110,99,97,116,101,110,97,116,105,111,110,32,119,104,105,99,104,32,114,101,113,117,105,114,101,115,32,101,118,101,110,32,109,111,114,101,32,99,104,97,114,97,99,116,101,114,115,32,116,104,97,110,32,73,32,99,97,114,101,32,116,111,32,99,111,117,110,116] { mr := some ⟨fun k => (k : Int) + 11, 0⟩, cr := some ⟨fun k => (k : Int) + 7, 0⟩ }).map (·.pdus) = .ok [{ FirstOctet := 64, PI := 4, MR := 11, UDH := [⟨0, [7,3,1]⟩], UD := [116,104,105,115,32,105,115,32,97,32,118,101,114,121,32,108,111,110,103,32,109,101,115,115,97,103,101,32,116,104,97,116,32,100,111,101,115,32,110,111,116,32,102,105,116,32,105,110,32,97,32,115,105,110,103,108,101,32,83,77,83,32,109,101,115,115,97,103,101,44,32,97,116,32,108,101,97,115,116,32,105,116,32,119,105,108,108,32,105,102,32,73,32,107,101,101,112,32,97,100,100,105,110,103,32,109,111,114,101,32,116,111,32,105,116,32,97,115,32,49,54,48,32,99,104,97,114,97,99,116,101,114,115,32,105,115,32,109,111,114,101,32,116,104,97,110,32,121,111,117,32,109,105] }, { FirstOctet := 64, PI := 4, MR := 12, UDH := [⟨0, [7,3,2]⟩], UD := [103,104,116,32,116,104,105,110,107,44,32,98,117,116,32,119,97,105,116,44,32,116,104,101,110,32,119,101,32,97,108,115,111,32,110,101,101,100,32,97,32,114,101,97,108,108,121,32,114,101,97,108,108,121,32,108,111,110,103,32,109,101,115,115,97,103,101,32,116,111,32,116,114,105,103,103,101,114,32,97,32,116,104,114,101,101,32,115,101,103,109,101,110,116,32,99,111,110,99,97,116,101,110,97,116,105,111,110,32,119,104,105,99,104,32,114,101,113,117,105,114,101,115,32,101,118,101,110,32,109,111,114,101,32,99,104,97,114,97,99,116,101,114,115,32,116,104,97,110,32,73,32,99] }, { FirstOctet := 64, PI := 4, MR := 13, UDH := [⟨0, [7,3,3]⟩], UD := [97,114,101,32,116,111,32,99,111,117,110,116] }] := by decide +kernel
-- three segment 7bit with16BitConcatRef
example : (({  } : TPDU).Segment [116,104,105,115,32,105,115,32,97,32,118,101,114,121,32,108,111,110,103,32,109,101,115,115,97,103,101,32,116,104,97,116,32,100,111,101,115,32,110,111,116,32,102,105,116,32,105,110,32,97,32,115,105,110,103,108,101,32,83,77,83,32,109,101,115,115,97,103,101,44,32,97,116,32,108,101,97,115,116,32,105,116,32,119,105,108,108,32,105,102,32,73,32,107,101,101,112,32,97,100,100,105,110,103,32,109,111,114,101,32,116,111,32,105,116,32,97,115,32,49,54,48,32,99,104,97,114,97,99,116,101,114,115,32,105,115,32,109,111,114,101,32,116,104,97,110,32,121,111,117,32,109,105,103,104,116,32,116,104,105,110,107,44,32,98,117,116,32,119,97,105,116,44,32,116,104,101,110,32,119,101,32,97,108,115,111,32,110,101,101,100,32,97,32,114,101,97,108,108,121,32,114,101,97,108,108,121,32,108,111,110,103,32,109,101,115,115,97,103,101,32,116,111,32,116,114,105,103,103,101,114,32,97,32,116,104,114,101,101,32,115,101,103,109,101,110,116,32,99,111,110,99,97,116,101,110,97,116,105,111,110,32,119,104,105,99,104,32,114,101,113,117,105,114,101,115,32,101,118,101,110,32,109,111,114,101,32,99,104,97,114,97,99,116,101,114,115,32,116,104,97,110,32,73,32,99,97,114,101,32,116,111,32,99,111,117,110,116] { mr := some ⟨fun k => (k : Int) + 21, 0⟩, cr := some ⟨fun k => (k : Int) + 1288, 0⟩, wide := true }).map (·.pdus) = .ok [{ FirstOctet := 64, PI := 4, MR := 21, UDH := [⟨8, [5,8,3,1]⟩], UD := [116,104,105,115,32,105,115,32,97,32,118,101,114,121,32,108,111,110,103,32,109,101,115,115,97,103,101,32,116,104,97,116,32,100,111,101,115,32,110,111,116,32,102,105,116,32,105,110,32,97,32,115,105,110,103,108,101,32,83,77,83,32,109,101,115,115,97,103,101,44,32,97,116,32,108,101,97,115,116,32,105,116,32,119,105,108,108,32,105,102,32,73,32,107,101,101,112,32,97,100,100,105,110,103,32,109,111,114,101,32,116,111,32,105,116,32,97,115,32,49,54,48,32,99,104,97,114,97,99,116,101,114,115,32,105,115,32,109,111,114,101,32,116,104,97,110,32,121,111,117,32,109] }, { FirstOctet := 64, PI := 4, MR := 22, UDH := [⟨8, [5,8,3,2]⟩], UD := [105,103,104,116,32,116,104,105,110,107,44,32,98,117,116,32,119,97,105,116,44,32,116,104,101,110,32,119,101,32,97,108,115,111,32,110,101,101,100,32,97,32,114,101,97,108,108,121,32,114,101,97,108,108,121,32,108,111,110,103,32,109,101,115,115,97,103,101,32,116,111,32,116,114,105,103,103,101,114,32,97,32,116,104,114,101,101,32,115,101,103,109,101,110,116,32,99,111,110,99,97,116,101,110,97,116,105,111,110,32,119,104,105,99,104,32,114,101,113,117,105,114,101,115,32,101,118,101,110,32,109,111,114,101,32,99,104,97,114,97,99,116,101,114,115,32,116,104,97,110,32,73] }, { FirstOctet := 64, PI := 4, MR := 23, UDH := [⟨8, [5,8,3,3]⟩], UD := [32,99,97,114,101,32,116,111,32,99,111,117,110,116] }] := by decide +kernel
-- 8bit
example : (({ DCS := 4 } : TPDU).Segment [104,101,108,108,111] {}).map (·.pdus) = .ok [{ DCS := 4, UD := [104,101,108,108,111] }] := by decide +kernel
-- ucs2
example : (({ DCS := 8 } : TPDU).Segment [104,101,108,108,111] {}).map (·.pdus) = .ok [{ DCS := 8, UD := [104,101,108,108,111] }] := by decide +kernel
-- single segment withMR
example : (({  } : TPDU).Segment [104,101,108,108,111] { mr := some ⟨fun k => (k : Int) + 43, 0⟩ }).map (·.pdus) = .ok [{ MR := 43, UD := [104,101,108,108,111] }] := by decide +kernel

/-! encoding/tpdu/tpdu_internal_test.go, TestDecodeUserData. -/

-- nil
example : (({  } : TPDU).decodeUserData []).map (fun t => (t.UD, t.UDH)) = .error (.err (.decode "udl" 0 .underflow)) := by decide +kernel
-- empty
example : (({  } : TPDU).decodeUserData [0]).map (fun t => (t.UD, t.UDH)) = .ok ([], []) := by decide +kernel
-- 7bit
example : (({  } : TPDU).decodeUserData [7,237,242,124,30,62,151,1]).map (fun t => (t.UD, t.UDH)) = .ok ([109,101,115,115,97,103,101], []) := by decide +kernel
-- sm overlength 7bit
example : (({  } : TPDU).decodeUserData [7,237,242,124,30,62,151,241]).map (fun t => (t.UD, t.UDH)) = .error (.err (.decode "sm" 1 .overlength)) := by decide +kernel
-- sm underflow
example : (({  } : TPDU).decodeUserData [7,237,242,124,30,62,151]).map (fun t => (t.UD, t.UDH)) = .error (.err (.decode "sm" 1 .underflow)) := by decide +kernel
-- 7bit udh
example : (({ FirstOctet := 64 } : TPDU).decodeUserData [14,5,0,3,1,2,3,218,229,249,60,124,46,3]).map (fun t => (t.UD, t.UDH)) = .ok ([109,101,115,115,97,103,101], [⟨0, [1,2,3]⟩]) := by decide +kernel
-- 8bit
example : (({ DCS := 244 } : TPDU).decodeUserData [7,237,242,124,30,62,151,1]).map (fun t => (t.UD, t.UDH)) = .ok ([237,242,124,30,62,151,1], []) := by decide +kernel
-- ucs2
example : (({ DCS := 224 } : TPDU).decodeUserData [14,0,109,0,101,0,115,0,115,0,97,0,103,0,101]).map (fun t => (t.UD, t.UDH)) = .ok ([0,109,0,101,0,115,0,115,0,97,0,103,0,101], []) := by decide +kernel
-- odd ucs2
example : (({ DCS := 224 } : TPDU).decodeUserData [13,0,109,0,101,0,115,0,115,0,97,0,103,0]).map (fun t => (t.UD, t.UDH)) = .error (.err (.decode "sm" 1 .oddUCS2Length)) := by decide +kernel
-- udh only
example : (({ FirstOctet := 64 } : TPDU).decodeUserData [6,5,1,3,1,2,3]).map (fun t => (t.UD, t.UDH)) = .ok ([], [⟨1, [1,2,3]⟩]) := by decide +kernel
-- bad dcs
example : (({ FirstOctet := 64, DCS := 170 } : TPDU).decodeUserData [6,4,1,3,1,2]).map (fun t => (t.UD, t.UDH)) = .error (.err (.decode "alphabet" 1 .invalid)) := by decide +kernel
-- overlength
example : (({ FirstOctet := 64 } : TPDU).decodeUserData [6,5,1,3,1,2,3,4]).map (fun t => (t.UD, t.UDH)) = .error (.err (.decode "ud" 1 .overlength)) := by decide +kernel
-- short udh
example : (({ FirstOctet := 64 } : TPDU).decodeUserData [5,5,1,3,1,2]).map (fun t => (t.UD, t.UDH)) = .error (.err (.decode "udh.ie" 2 .underflow)) := by decide +kernel
-- bad udh
example : (({ FirstOctet := 64 } : TPDU).decodeUserData [5,4,1,3,1,2]).map (fun t => (t.UD, t.UDH)) = .error (.err (.decode "udh.ied" 4 .underflow)) := by decide +kernel

/-! encoding/tpdu/tpdu_internal_test.go, TestEncodeUserData. -/

-- empty 7bit
example : ({  } : TPDU).encodeUserData = .ok [0] := by decide +kernel
-- empty 8bit
example : ({ DCS := 244 } : TPDU).encodeUserData = .ok [0] := by decide +kernel
-- empty ucs2
example : ({ DCS := 224 } : TPDU).encodeUserData = .ok [0] := by decide +kernel
-- 7bit
example : ({ UD := [109,101,115,115,97,103,101] } : TPDU).encodeUserData = .ok [7,237,242,124,30,62,151,1] := by decide +kernel
-- 7bit udh
example : ({ FirstOctet := 64, UDH := [⟨0, [1,2,3]⟩], UD := [109,101,115,115,97,103,101] } : TPDU).encodeUserData = .ok [14,5,0,3,1,2,3,218,229,249,60,124,46,3] := by decide +kernel
-- 8bit udh
example : ({ FirstOctet := 64, DCS := 244, UDH := [⟨0, [1,2,3]⟩], UD := [109,101,115,115,97,103,101] } : TPDU).encodeUserData = .ok [13,5,0,3,1,2,3,109,101,115,115,97,103,101] := by decide +kernel
-- ucs2 udh
example : ({ FirstOctet := 64, DCS := 224, UDH := [⟨0, [1,2,3]⟩], UD := [0,109,0,101,0,115,0,115,0,97,0,103,0,101] } : TPDU).encodeUserData = .ok [20,5,0,3,1,2,3,0,109,0,101,0,115,0,115,0,97,0,103,0,101] := by decide +kernel
-- 8bit
example : ({ DCS := 244, UD := [237,242,124,30,62,151,1] } : TPDU).encodeUserData = .ok [7,237,242,124,30,62,151,1] := by decide +kernel
-- ucs2
example : ({ DCS := 224, UD := [0,109,0,101,0,115,0,115,0,97,0,103,0,101] } : TPDU).encodeUserData = .ok [14,0,109,0,101,0,115,0,115,0,97,0,103,0,101] := by decide +kernel
-- odd ucs2
example : ({ DCS := 224, UD := [0,109,0,101,0,115,0,115,0,97,0,103,0] } : TPDU).encodeUserData = .error (.err (.encode "sm" .oddUCS2Length)) := by decide +kernel
-- udh only
example : ({ FirstOctet := 64, UDH := [⟨1, [1,2,3]⟩] } : TPDU).encodeUserData = .ok [6,5,1,3,1,2,3] := by decide +kernel
-- unknown alphabet
example : ({ DCS := 128 } : TPDU).encodeUserData = .error (.err (.encode "alphabet" .invalid)) := by decide +kernel

/-! encoding/tpdu/tpdu_internal_test.go, TestChunk. -/

-- 7bit
example : chunk [1,2,27,4,5,6,7,8] .a7Bit (3) = .ok [[1,2], [27,4,5], [6,7,8]] := by decide +kernel
-- 8bit
example : chunk [1,2,27,4,5,6,7,8] .a8Bit (3) = .ok [[1,2,27], [4,5,6], [7,8]] := by decide +kernel
-- ucs2
example : chunk [1,2,216,4,5,6,7,8,9,10] .ucs2 (4) = .ok [[1,2], [216,4,5,6], [7,8,9,10]] := by decide +kernel

/-! encoding/tpdu/tpdu_internal_test.go, TestChunk7Bit. -/

-- nil
example : chunk7Bit [] (2) = .ok [] := by decide +kernel
-- empty
example : chunk7Bit [] (2) = .ok [] := by decide +kernel
-- integral
example : chunk7Bit [1,2,3,4] (2) = .ok [[1,2], [3,4]] := by decide +kernel
-- residual
example : chunk7Bit [1,2,3,4] (3) = .ok [[1,2,3], [4]] := by decide +kernel
-- three
example : chunk7Bit [1,2,3,4,5,6,7,8] (3) = .ok [[1,2,3], [4,5,6], [7,8]] := by decide +kernel
-- escaped
example : chunk7Bit [1,2,27,4,5,6,7,8] (3) = .ok [[1,2], [27,4,5], [6,7,8]] := by decide +kernel
-- double escaped
example : chunk7Bit [1,27,27,4,5,6,7,8] (3) = .ok [[1,27,27], [4,5,6], [7,8]] := by decide +kernel

/-! encoding/tpdu/tpdu_internal_test.go, TestChunk8Bit. -/

-- nil
example : chunk8Bit [] (2) = .ok [] := by decide +kernel
-- empty
example : chunk8Bit [] (2) = .ok [] := by decide +kernel
-- integral
example : chunk8Bit [1,2,3,4] (2) = .ok [[1,2], [3,4]] := by decide +kernel
-- residual
example : chunk8Bit [1,2,3,4] (3) = .ok [[1,2,3], [4]] := by decide +kernel
-- three
example : chunk8Bit [1,2,3,4,5,6,7,8] (3) = .ok [[1,2,3], [4,5,6], [7,8]] := by decide +kernel

/-! encoding/tpdu/tpdu_internal_test.go, TestChunkUCS2. -/

-- nil
example : chunkUCS2 [] (2) = .ok [] := by decide +kernel
-- empty
example : chunkUCS2 [] (2) = .ok [] := by decide +kernel
-- integral
example : chunkUCS2 [1,2,3,4] (2) = .ok [[1,2], [3,4]] := by decide +kernel
-- odd bs
example : chunkUCS2 [1,2,3,4] (3) = .ok [[1,2], [3,4]] := by decide +kernel
-- three
example : chunkUCS2 [1,2,3,4,5,6,7,8,9,10] (4) = .ok [[1,2,3,4], [5,6,7,8], [9,10]] := by decide +kernel
-- surrogate
example : chunkUCS2 [1,2,216,4,5,6,7,8,9,10] (4) = .ok [[1,2], [216,4,5,6], [7,8,9,10]] := by decide +kernel
-- odd msg
example : chunkUCS2 [1,2,3,4,5,6,7,8,9] (4) = .ok [[1,2,3,4], [5,6,7,8], [9]] := by decide +kernel

end Verif.Vectors
