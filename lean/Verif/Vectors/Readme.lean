import Verif.Model.Dump
import Verif.Model.CmdPrint

/-!
The samples of the commands in README.md and the tests of the `String` methods, evaluated in the model.  Generated by
tools/gen_readme.py; do not edit.  These are tests of the model's faithfulness: no claim of the manifest rests on
them.
-/

namespace Verif.Vectors
open Verif.Model

/-- `smssubmit -number 12345 -message Hello world` -/
example : (SmsSubmit.main [49, 50, 51, 52, 53] [72, 101, 108, 108, 111, 32, 119, 111, 114, 108, 100] 0).map SmsSubmit.stdout = .ok
  [83, 117, 98, 109, 105, 116, 32, 84, 80, 68, 85, 58, 10, 48, 49, 48, 49, 48, 53, 57, 49, 50, 49, 52, 51, 102, 53, 48, 48, 48, 48, 48, 98, 99, 56, 51, 50, 57, 98, 102, 100, 48, 54, 100, 100, 100, 102, 55, 50, 51, 54, 49, 57, 10] := by decide +kernel

/-- `smssubmit -number 12345 -message this is a very long message that does not fit in a single SMS messa` -/
example : (SmsSubmit.main [49, 50, 51, 52, 53] [116, 104, 105, 115, 32, 105, 115, 32, 97, 32, 118, 101, 114, 121, 32, 108, 111, 110, 103, 32, 109, 101, 115, 115, 97, 103, 101, 32, 116, 104, 97, 116, 32, 100, 111, 101, 115, 32, 110, 111, 116, 32, 102, 105, 116, 32, 105, 110, 32, 97, 32, 115, 105, 110, 103, 108, 101, 32, 83, 77, 83, 32, 109, 101, 115, 115, 97, 103, 101, 44, 32, 97, 116, 32, 108, 101, 97, 115, 116, 32, 105, 116, 32, 119, 105, 108, 108, 32, 105, 102, 32, 73, 32, 107, 101, 101, 112, 32, 97, 100, 100, 105, 110, 103, 32, 109, 111, 114, 101, 32, 116, 111, 32, 105, 116, 32, 97, 115, 32, 49, 54, 48, 32, 99, 104, 97, 114, 97, 99, 116, 101, 114, 115, 32, 105, 115, 32, 109, 111, 114, 101, 32, 116, 104, 97, 110, 32, 121, 111, 117, 32, 109, 105, 103, 104, 116, 32, 116, 104, 105, 110, 107, 32, 240, 159, 152, 129] 0).map SmsSubmit.stdout = .ok
  [83, 117, 98, 109, 105, 116, 32, 84, 80, 68, 85, 32, 49, 58, 10, 52, 49, 48, 49, 48, 53, 57, 49, 50, 49, 52, 51, 102, 53, 48, 48, 48, 56, 56, 99, 48, 53, 48, 48, 48, 51, 48, 49, 48, 51, 48, 49, 48, 48, 55, 52, 48, 48, 54, 56, 48, 48, 54, 57, 48, 48, 55, 51, 48, 48, 50, 48, 48, 48, 54, 57, 48, 48, 55, 51, 48, 48, 50, 48, 48, 48, 54, 49, 48, 48, 50, 48, 48, 48, 55, 54, 48, 48, 54, 53, 48, 48, 55, 50, 48, 48, 55, 57, 48, 48, 50, 48, 48, 48, 54, 99, 48, 48, 54, 102, 48, 48, 54, 101, 48, 48, 54, 55, 48, 48, 50, 48, 48, 48, 54, 100, 48, 48, 54, 53, 48, 48, 55, 51, 48, 48, 55, 51, 48, 48, 54, 49, 48, 48, 54, 55, 48, 48, 54, 53, 48, 48, 50, 48, 48, 48, 55, 52, 48, 48, 54, 56, 48, 48, 54, 49, 48, 48, 55, 52, 48, 48, 50, 48, 48, 48, 54, 52, 48, 48, 54, 102, 48, 48, 54, 53, 48, 48, 55, 51, 48, 48, 50, 48, 48, 48, 54, 101, 48, 48, 54, 102, 48, 48, 55, 52, 48, 48, 50, 48, 48, 48, 54, 54, 48, 48, 54, 57, 48, 48, 55, 52, 48, 48, 50, 48, 48, 48, 54, 57, 48, 48, 54, 101, 48, 48, 50, 48, 48, 48, 54, 49, 48, 48, 50, 48, 48, 48, 55, 51, 48, 48, 54, 57, 48, 48, 54, 101, 48, 48, 54, 55, 48, 48, 54, 99, 48, 48, 54, 53, 48, 48, 50, 48, 48, 48, 53, 51, 48, 48, 52, 100, 48, 48, 53, 51, 48, 48, 50, 48, 48, 48, 54, 100, 48, 48, 54, 53, 48, 48, 55, 51, 48, 48, 55, 51, 48, 48, 54, 49, 10, 83, 117, 98, 109, 105, 116, 32, 84, 80, 68, 85, 32, 50, 58, 10, 52, 49, 48, 50, 48, 53, 57, 49, 50, 49, 52, 51, 102, 53, 48, 48, 48, 56, 56, 99, 48, 53, 48, 48, 48, 51, 48, 49, 48, 51, 48, 50, 48, 48, 54, 55, 48, 48, 54, 53, 48, 48, 50, 99, 48, 48, 50, 48, 48, 48, 54, 49, 48, 48, 55, 52, 48, 48, 50, 48, 48, 48, 54, 99, 48, 48, 54, 53, 48, 48, 54, 49, 48, 48, 55, 51, 48, 48, 55, 52, 48, 48, 50, 48, 48, 48, 54, 57, 48, 48, 55, 52, 48, 48, 50, 48, 48, 48, 55, 55, 48, 48, 54, 57, 48, 48, 54, 99, 48, 48, 54, 99, 48, 48, 50, 48, 48, 48, 54, 57, 48, 48, 54, 54, 48, 48, 50, 48, 48, 48, 52, 57, 48, 48, 50, 48, 48, 48, 54, 98, 48, 48, 54, 53, 48, 48, 54, 53, 48, 48, 55, 48, 48, 48, 50, 48, 48, 48, 54, 49, 48, 48, 54, 52, 48, 48, 54, 52, 48, 48, 54, 57, 48, 48, 54, 101, 48, 48, 54, 55, 48, 48, 50, 48, 48, 48, 54, 100, 48, 48, 54, 102, 48, 48, 55, 50, 48, 48, 54, 53, 48, 48, 50, 48, 48, 48, 55, 52, 48, 48, 54, 102, 48, 48, 50, 48, 48, 48, 54, 57, 48, 48, 55, 52, 48, 48, 50, 48, 48, 48, 54, 49, 48, 48, 55, 51, 48, 48, 50, 48, 48, 48, 51, 49, 48, 48, 51, 54, 48, 48, 51, 48, 48, 48, 50, 48, 48, 48, 54, 51, 48, 48, 54, 56, 48, 48, 54, 49, 48, 48, 55, 50, 48, 48, 54, 49, 48, 48, 54, 51, 48, 48, 55, 52, 48, 48, 54, 53, 48, 48, 55, 50, 48, 48, 55, 51, 48, 48, 50, 48, 10, 83, 117, 98, 109, 105, 116, 32, 84, 80, 68, 85, 32, 51, 58, 10, 52, 49, 48, 51, 48, 53, 57, 49, 50, 49, 52, 51, 102, 53, 48, 48, 48, 56, 52, 52, 48, 53, 48, 48, 48, 51, 48, 49, 48, 51, 48, 51, 48, 48, 54, 57, 48, 48, 55, 51, 48, 48, 50, 48, 48, 48, 54, 100, 48, 48, 54, 102, 48, 48, 55, 50, 48, 48, 54, 53, 48, 48, 50, 48, 48, 48, 55, 52, 48, 48, 54, 56, 48, 48, 54, 49, 48, 48, 54, 101, 48, 48, 50, 48, 48, 48, 55, 57, 48, 48, 54, 102, 48, 48, 55, 53, 48, 48, 50, 48, 48, 48, 54, 100, 48, 48, 54, 57, 48, 48, 54, 55, 48, 48, 54, 56, 48, 48, 55, 52, 48, 48, 50, 48, 48, 48, 55, 52, 48, 48, 54, 56, 48, 48, 54, 57, 48, 48, 54, 101, 48, 48, 54, 98, 48, 48, 50, 48, 100, 56, 51, 100, 100, 101, 48, 49, 10] := by decide +kernel

/-- `smsdeliver -p 07911614220991F1040B911605935713F200008140806113912304D7F79B0E` -/
example : (SmsDeliver.main true [[48, 55, 57, 49, 49, 54, 49, 52, 50, 50, 48, 57, 57, 49, 70, 49, 48, 52, 48, 66, 57, 49, 49, 54, 48, 53, 57, 51, 53, 55, 49, 51, 70, 50, 48, 48, 48, 48, 56, 49, 52, 48, 56, 48, 54, 49, 49, 51, 57, 49, 50, 51, 48, 52, 68, 55, 70, 55, 57, 66, 48, 69]]).map (SmsDeliver.stdout fun _ _ => []) = .ok
  [43, 54, 49, 53, 48, 51, 57, 55, 53, 51, 49, 50, 58, 32, 87, 111, 111, 116, 10] := by decide +kernel

/-- `smsdeliver 400B911605935713F20008814080611373238C050003C00301007400680069007300200069007300200061002` -/
example : (SmsDeliver.main false [[52, 48, 48, 66, 57, 49, 49, 54, 48, 53, 57, 51, 53, 55, 49, 51, 70, 50, 48, 48, 48, 56, 56, 49, 52, 48, 56, 48, 54, 49, 49, 51, 55, 51, 50, 51, 56, 67, 48, 53, 48, 48, 48, 51, 67, 48, 48, 51, 48, 49, 48, 48, 55, 52, 48, 48, 54, 56, 48, 48, 54, 57, 48, 48, 55, 51, 48, 48, 50, 48, 48, 48, 54, 57, 48, 48, 55, 51, 48, 48, 50, 48, 48, 48, 54, 49, 48, 48, 50, 48, 48, 48, 55, 54, 48, 48, 54, 53, 48, 48, 55, 50, 48, 48, 55, 57, 48, 48, 50, 48, 48, 48, 54, 67, 48, 48, 54, 70, 48, 48, 54, 69, 48, 48, 54, 55, 48, 48, 50, 48, 48, 48, 54, 68, 48, 48, 54, 53, 48, 48, 55, 51, 48, 48, 55, 51, 48, 48, 54, 49, 48, 48, 54, 55, 48, 48, 54, 53, 48, 48, 50, 48, 48, 48, 55, 52, 48, 48, 54, 56, 48, 48, 54, 49, 48, 48, 55, 52, 48, 48, 50, 48, 48, 48, 54, 52, 48, 48, 54, 70, 48, 48, 54, 53, 48, 48, 55, 51, 48, 48, 50, 48, 48, 48, 54, 69, 48, 48, 54, 70, 48, 48, 55, 52, 48, 48, 50, 48, 48, 48, 54, 54, 48, 48, 54, 57, 48, 48, 55, 52, 48, 48, 50, 48, 48, 48, 54, 57, 48, 48, 54, 69, 48, 48, 50, 48, 48, 48, 54, 49, 48, 48, 50, 48, 48, 48, 55, 51, 48, 48, 54, 57, 48, 48, 54, 69, 48, 48, 54, 55, 48, 48, 54, 67, 48, 48, 54, 53, 48, 48, 50, 48, 48, 48, 53, 51, 48, 48, 52, 68, 48, 48, 53, 51, 48, 48, 50, 48, 48, 48, 54, 68, 48, 48, 54, 53, 48, 48, 55, 51, 48, 48, 55, 51, 48, 48, 54, 49],
  [52, 48, 48, 66, 57, 49, 49, 54, 48, 53, 57, 51, 53, 55, 49, 51, 70, 50, 48, 48, 48, 56, 56, 49, 52, 48, 56, 48, 54, 49, 49, 51, 55, 51, 50, 51, 56, 67, 48, 53, 48, 48, 48, 51, 67, 48, 48, 51, 48, 50, 48, 48, 54, 55, 48, 48, 54, 53, 48, 48, 50, 67, 48, 48, 50, 48, 48, 48, 54, 49, 48, 48, 55, 52, 48, 48, 50, 48, 48, 48, 54, 67, 48, 48, 54, 53, 48, 48, 54, 49, 48, 48, 55, 51, 48, 48, 55, 52, 48, 48, 50, 48, 48, 48, 54, 57, 48, 48, 55, 52, 48, 48, 50, 48, 48, 48, 55, 55, 48, 48, 54, 57, 48, 48, 54, 67, 48, 48, 54, 67, 48, 48, 50, 48, 48, 48, 54, 57, 48, 48, 54, 54, 48, 48, 50, 48, 48, 48, 52, 57, 48, 48, 50, 48, 48, 48, 54, 66, 48, 48, 54, 53, 48, 48, 54, 53, 48, 48, 55, 48, 48, 48, 50, 48, 48, 48, 54, 49, 48, 48, 54, 52, 48, 48, 54, 52, 48, 48, 54, 57, 48, 48, 54, 69, 48, 48, 54, 55, 48, 48, 50, 48, 48, 48, 54, 68, 48, 48, 54, 70, 48, 48, 55, 50, 48, 48, 54, 53, 48, 48, 50, 48, 48, 48, 55, 52, 48, 48, 54, 70, 48, 48, 50, 48, 48, 48, 54, 57, 48, 48, 55, 52, 48, 48, 50, 48, 48, 48, 54, 49, 48, 48, 55, 51, 48, 48, 50, 48, 48, 48, 51, 49, 48, 48, 51, 54, 48, 48, 51, 48, 48, 48, 50, 48, 48, 48, 54, 51, 48, 48, 54, 56, 48, 48, 54, 49, 48, 48, 55, 50, 48, 48, 54, 49, 48, 48, 54, 51, 48, 48, 55, 52, 48, 48, 54, 53, 48, 48, 55, 50, 48, 48, 55, 51, 48, 48, 50, 48],
  [52, 52, 48, 66, 57, 49, 49, 54, 48, 53, 57, 51, 53, 55, 49, 51, 70, 50, 48, 48, 48, 56, 56, 49, 52, 48, 56, 48, 54, 49, 49, 51, 56, 51, 50, 51, 52, 52, 48, 53, 48, 48, 48, 51, 67, 48, 48, 51, 48, 51, 48, 48, 54, 57, 48, 48, 55, 51, 48, 48, 50, 48, 48, 48, 54, 68, 48, 48, 54, 70, 48, 48, 55, 50, 48, 48, 54, 53, 48, 48, 50, 48, 48, 48, 55, 52, 48, 48, 54, 56, 48, 48, 54, 49, 48, 48, 54, 69, 48, 48, 50, 48, 48, 48, 55, 57, 48, 48, 54, 70, 48, 48, 55, 53, 48, 48, 50, 48, 48, 48, 54, 68, 48, 48, 54, 57, 48, 48, 54, 55, 48, 48, 54, 56, 48, 48, 55, 52, 48, 48, 50, 48, 48, 48, 55, 52, 48, 48, 54, 56, 48, 48, 54, 57, 48, 48, 54, 69, 48, 48, 54, 66, 48, 48, 50, 48, 68, 56, 51, 68, 68, 69, 48, 49]]).map (SmsDeliver.stdout fun _ _ => []) = .ok
  [43, 54, 49, 53, 48, 51, 57, 55, 53, 51, 49, 50, 58, 32, 116, 104, 105, 115, 32, 105, 115, 32, 97, 32, 118, 101, 114, 121, 32, 108, 111, 110, 103, 32, 109, 101, 115, 115, 97, 103, 101, 32, 116, 104, 97, 116, 32, 100, 111, 101, 115, 32, 110, 111, 116, 32, 102, 105, 116, 32, 105, 110, 32, 97, 32, 115, 105, 110, 103, 108, 101, 32, 83, 77, 83, 32, 109, 101, 115, 115, 97, 103, 101, 44, 32, 97, 116, 32, 108, 101, 97, 115, 116, 32, 105, 116, 32, 119, 105, 108, 108, 32, 105, 102, 32, 73, 32, 107, 101, 101, 112, 32, 97, 100, 100, 105, 110, 103, 32, 109, 111, 114, 101, 32, 116, 111, 32, 105, 116, 32, 97, 115, 32, 49, 54, 48, 32, 99, 104, 97, 114, 97, 99, 116, 101, 114, 115, 32, 105, 115, 32, 109, 111, 114, 101, 32, 116, 104, 97, 110, 32, 121, 111, 117, 32, 109, 105, 103, 104, 116, 32, 116, 104, 105, 110, 107, 32, 240, 159, 152, 129, 10] := by decide +kernel

/-- `smsdecode -o 010105912143f500000bc8329bfd06dddf723619` -/
example : SmsDecode.text [48, 49, 48, 49, 48, 53, 57, 49, 50, 49, 52, 51, 102, 53, 48, 48, 48, 48, 48, 98, 99, 56, 51, 50, 57, 98, 102, 100, 48, 54, 100, 100, 100, 102, 55, 50, 51, 54, 49, 57] false true = .ok (.ok
  [84, 80, 68, 85, 58, 32, 83, 77, 83, 45, 83, 85, 66, 77, 73, 84, 10, 84, 80, 45, 77, 84, 73, 58, 32, 48, 120, 48, 49, 32, 83, 117, 98, 109, 105, 116, 10, 84, 80, 45, 82, 68, 58, 32, 102, 97, 108, 115, 101, 10, 84, 80, 45, 86, 80, 70, 58, 32, 48, 120, 48, 48, 32, 78, 111, 116, 32, 80, 114, 101, 115, 101, 110, 116, 10, 84, 80, 45, 82, 80, 58, 32, 102, 97, 108, 115, 101, 10, 84, 80, 45, 85, 68, 72, 73, 58, 32, 102, 97, 108, 115, 101, 10, 84, 80, 45, 83, 82, 82, 58, 32, 102, 97, 108, 115, 101, 10, 84, 80, 45, 77, 82, 58, 32, 49, 10, 84, 80, 45, 68, 65, 58, 32, 43, 49, 50, 51, 52, 53, 10, 84, 80, 45, 80, 73, 68, 58, 32, 48, 120, 48, 48, 10, 84, 80, 45, 68, 67, 83, 58, 32, 48, 120, 48, 48, 32, 55, 98, 105, 116, 10, 84, 80, 45, 86, 80, 58, 32, 78, 111, 116, 32, 80, 114, 101, 115, 101, 110, 116, 10, 84, 80, 45, 85, 68, 58, 32, 48, 48, 48, 48, 48, 48, 48, 48, 32, 32, 52, 56, 32, 54, 53, 32, 54, 99, 32, 54, 99, 32, 54, 102, 32, 50, 48, 32, 55, 55, 32, 54, 102, 32, 32, 55, 50, 32, 54, 99, 32, 54, 52, 32, 32, 32, 32, 32, 32, 32, 32, 32, 32, 32, 32, 32, 32, 32, 32, 32, 124, 72, 101, 108, 108, 111, 32, 119, 111, 114, 108, 100, 124, 10]) := by decide +kernel

/-- `smsdecode -p 07911614220991F1040B911605935713F200008140806113912304D7F79B0E` -/
example : SmsDecode.text [48, 55, 57, 49, 49, 54, 49, 52, 50, 50, 48, 57, 57, 49, 70, 49, 48, 52, 48, 66, 57, 49, 49, 54, 48, 53, 57, 51, 53, 55, 49, 51, 70, 50, 48, 48, 48, 48, 56, 49, 52, 48, 56, 48, 54, 49, 49, 51, 57, 49, 50, 51, 48, 52, 68, 55, 70, 55, 57, 66, 48, 69] true false = .ok (.ok
  [83, 77, 83, 67, 58, 32, 43, 54, 49, 52, 49, 50, 50, 57, 48, 49, 57, 49, 10, 84, 80, 68, 85, 58, 32, 83, 77, 83, 45, 68, 69, 76, 73, 86, 69, 82, 10, 84, 80, 45, 77, 84, 73, 58, 32, 48, 120, 48, 48, 32, 68, 101, 108, 105, 118, 101, 114, 10, 84, 80, 45, 77, 77, 83, 58, 32, 116, 114, 117, 101, 10, 84, 80, 45, 76, 80, 58, 32, 102, 97, 108, 115, 101, 10, 84, 80, 45, 82, 80, 58, 32, 102, 97, 108, 115, 101, 10, 84, 80, 45, 85, 68, 72, 73, 58, 32, 102, 97, 108, 115, 101, 10, 84, 80, 45, 83, 82, 73, 58, 32, 102, 97, 108, 115, 101, 10, 84, 80, 45, 79, 65, 58, 32, 43, 54, 49, 53, 48, 51, 57, 55, 53, 51, 49, 50, 10, 84, 80, 45, 80, 73, 68, 58, 32, 48, 120, 48, 48, 10, 84, 80, 45, 68, 67, 83, 58, 32, 48, 120, 48, 48, 32, 55, 98, 105, 116, 10, 84, 80, 45, 83, 67, 84, 83, 58, 32, 50, 48, 49, 56, 45, 48, 52, 45, 48, 56, 32, 49, 54, 58, 51, 49, 58, 49, 57, 32, 43, 48, 56, 48, 48, 10, 84, 80, 45, 85, 68, 58, 32, 48, 48, 48, 48, 48, 48, 48, 48, 32, 32, 53, 55, 32, 54, 102, 32, 54, 102, 32, 55, 52, 32, 32, 32, 32, 32, 32, 32, 32, 32, 32, 32, 32, 32, 32, 32, 32, 32, 32, 32, 32, 32, 32, 32, 32, 32, 32, 32, 32, 32, 32, 32, 32, 32, 32, 32, 32, 32, 32, 32, 124, 87, 111, 111, 116, 124, 10]) := by decide +kernel

/-- `smsdecode 400B911605935713F20008814080611373238C050003C003010074006800690073002000690073002000610020` -/
example : SmsDecode.text [52, 48, 48, 66, 57, 49, 49, 54, 48, 53, 57, 51, 53, 55, 49, 51, 70, 50, 48, 48, 48, 56, 56, 49, 52, 48, 56, 48, 54, 49, 49, 51, 55, 51, 50, 51, 56, 67, 48, 53, 48, 48, 48, 51, 67, 48, 48, 51, 48, 49, 48, 48, 55, 52, 48, 48, 54, 56, 48, 48, 54, 57, 48, 48, 55, 51, 48, 48, 50, 48, 48, 48, 54, 57, 48, 48, 55, 51, 48, 48, 50, 48, 48, 48, 54, 49, 48, 48, 50, 48, 48, 48, 55, 54, 48, 48, 54, 53, 48, 48, 55, 50, 48, 48, 55, 57, 48, 48, 50, 48, 48, 48, 54, 67, 48, 48, 54, 70, 48, 48, 54, 69, 48, 48, 54, 55, 48, 48, 50, 48, 48, 48, 54, 68, 48, 48, 54, 53, 48, 48, 55, 51, 48, 48, 55, 51, 48, 48, 54, 49, 48, 48, 54, 55, 48, 48, 54, 53, 48, 48, 50, 48, 48, 48, 55, 52, 48, 48, 54, 56, 48, 48, 54, 49, 48, 48, 55, 52, 48, 48, 50, 48, 48, 48, 54, 52, 48, 48, 54, 70, 48, 48, 54, 53, 48, 48, 55, 51, 48, 48, 50, 48, 48, 48, 54, 69, 48, 48, 54, 70, 48, 48, 55, 52, 48, 48, 50, 48, 48, 48, 54, 54, 48, 48, 54, 57, 48, 48, 55, 52, 48, 48, 50, 48, 48, 48, 54, 57, 48, 48, 54, 69, 48, 48, 50, 48, 48, 48, 54, 49, 48, 48, 50, 48, 48, 48, 55, 51, 48, 48, 54, 57, 48, 48, 54, 69, 48, 48, 54, 55, 48, 48, 54, 67, 48, 48, 54, 53, 48, 48, 50, 48, 48, 48, 53, 51, 48, 48, 52, 68, 48, 48, 53, 51, 48, 48, 50, 48, 48, 48, 54, 68, 48, 48, 54, 53, 48, 48, 55, 51, 48, 48, 55, 51, 48, 48, 54, 49] false false = .ok (.ok
  [84, 80, 68, 85, 58, 32, 83, 77, 83, 45, 68, 69, 76, 73, 86, 69, 82, 10, 84, 80, 45, 77, 84, 73, 58, 32, 48, 120, 48, 48, 32, 68, 101, 108, 105, 118, 101, 114, 10, 84, 80, 45, 77, 77, 83, 58, 32, 102, 97, 108, 115, 101, 10, 84, 80, 45, 76, 80, 58, 32, 102, 97, 108, 115, 101, 10, 84, 80, 45, 82, 80, 58, 32, 102, 97, 108, 115, 101, 10, 84, 80, 45, 85, 68, 72, 73, 58, 32, 116, 114, 117, 101, 10, 84, 80, 45, 83, 82, 73, 58, 32, 102, 97, 108, 115, 101, 10, 84, 80, 45, 79, 65, 58, 32, 43, 54, 49, 53, 48, 51, 57, 55, 53, 51, 49, 50, 10, 84, 80, 45, 80, 73, 68, 58, 32, 48, 120, 48, 48, 10, 84, 80, 45, 68, 67, 83, 58, 32, 48, 120, 48, 56, 32, 85, 67, 83, 45, 50, 10, 84, 80, 45, 83, 67, 84, 83, 58, 32, 50, 48, 49, 56, 45, 48, 52, 45, 48, 56, 32, 49, 54, 58, 51, 49, 58, 51, 55, 32, 43, 48, 56, 48, 48, 10, 84, 80, 45, 85, 68, 72, 58, 32, 73, 68, 58, 32, 48, 32, 32, 68, 97, 116, 97, 58, 32, 91, 49, 57, 50, 32, 51, 32, 49, 93, 10, 84, 80, 45, 85, 68, 58, 32, 48, 48, 48, 48, 48, 48, 48, 48, 32, 32, 48, 48, 32, 55, 52, 32, 48, 48, 32, 54, 56, 32, 48, 48, 32, 54, 57, 32, 48, 48, 32, 55, 51, 32, 32, 48, 48, 32, 50, 48, 32, 48, 48, 32, 54, 57, 32, 48, 48, 32, 55, 51, 32, 48, 48, 32, 50, 48, 32, 32, 124, 46, 116, 46, 104, 46, 105, 46, 115, 46, 32, 46, 105, 46, 115, 46, 32, 124, 10, 32, 32, 32, 32, 32, 32, 32, 48, 48, 48, 48, 48, 48, 49, 48, 32, 32, 48, 48, 32, 54, 49, 32, 48, 48, 32, 50, 48, 32, 48, 48, 32, 55, 54, 32, 48, 48, 32, 54, 53, 32, 32, 48, 48, 32, 55, 50, 32, 48, 48, 32, 55, 57, 32, 48, 48, 32, 50, 48, 32, 48, 48, 32, 54, 99, 32, 32, 124, 46, 97, 46, 32, 46, 118, 46, 101, 46, 114, 46, 121, 46, 32, 46, 108, 124, 10, 32, 32, 32, 32, 32, 32, 32, 48, 48, 48, 48, 48, 48, 50, 48, 32, 32, 48, 48, 32, 54, 102, 32, 48, 48, 32, 54, 101, 32, 48, 48, 32, 54, 55, 32, 48, 48, 32, 50, 48, 32, 32, 48, 48, 32, 54, 100, 32, 48, 48, 32, 54, 53, 32, 48, 48, 32, 55, 51, 32, 48, 48, 32, 55, 51, 32, 32, 124, 46, 111, 46, 110, 46, 103, 46, 32, 46, 109, 46, 101, 46, 115, 46, 115, 124, 10, 32, 32, 32, 32, 32, 32, 32, 48, 48, 48, 48, 48, 48, 51, 48, 32, 32, 48, 48, 32, 54, 49, 32, 48, 48, 32, 54, 55, 32, 48, 48, 32, 54, 53, 32, 48, 48, 32, 50, 48, 32, 32, 48, 48, 32, 55, 52, 32, 48, 48, 32, 54, 56, 32, 48, 48, 32, 54, 49, 32, 48, 48, 32, 55, 52, 32, 32, 124, 46, 97, 46, 103, 46, 101, 46, 32, 46, 116, 46, 104, 46, 97, 46, 116, 124, 10, 32, 32, 32, 32, 32, 32, 32, 48, 48, 48, 48, 48, 48, 52, 48, 32, 32, 48, 48, 32, 50, 48, 32, 48, 48, 32, 54, 52, 32, 48, 48, 32, 54, 102, 32, 48, 48, 32, 54, 53, 32, 32, 48, 48, 32, 55, 51, 32, 48, 48, 32, 50, 48, 32, 48, 48, 32, 54, 101, 32, 48, 48, 32, 54, 102, 32, 32, 124, 46, 32, 46, 100, 46, 111, 46, 101, 46, 115, 46, 32, 46, 110, 46, 111, 124, 10, 32, 32, 32, 32, 32, 32, 32, 48, 48, 48, 48, 48, 48, 53, 48, 32, 32, 48, 48, 32, 55, 52, 32, 48, 48, 32, 50, 48, 32, 48, 48, 32, 54, 54, 32, 48, 48, 32, 54, 57, 32, 32, 48, 48, 32, 55, 52, 32, 48, 48, 32, 50, 48, 32, 48, 48, 32, 54, 57, 32, 48, 48, 32, 54, 101, 32, 32, 124, 46, 116, 46, 32, 46, 102, 46, 105, 46, 116, 46, 32, 46, 105, 46, 110, 124, 10, 32, 32, 32, 32, 32, 32, 32, 48, 48, 48, 48, 48, 48, 54, 48, 32, 32, 48, 48, 32, 50, 48, 32, 48, 48, 32, 54, 49, 32, 48, 48, 32, 50, 48, 32, 48, 48, 32, 55, 51, 32, 32, 48, 48, 32, 54, 57, 32, 48, 48, 32, 54, 101, 32, 48, 48, 32, 54, 55, 32, 48, 48, 32, 54, 99, 32, 32, 124, 46, 32, 46, 97, 46, 32, 46, 115, 46, 105, 46, 110, 46, 103, 46, 108, 124, 10, 32, 32, 32, 32, 32, 32, 32, 48, 48, 48, 48, 48, 48, 55, 48, 32, 32, 48, 48, 32, 54, 53, 32, 48, 48, 32, 50, 48, 32, 48, 48, 32, 53, 51, 32, 48, 48, 32, 52, 100, 32, 32, 48, 48, 32, 53, 51, 32, 48, 48, 32, 50, 48, 32, 48, 48, 32, 54, 100, 32, 48, 48, 32, 54, 53, 32, 32, 124, 46, 101, 46, 32, 46, 83, 46, 77, 46, 83, 46, 32, 46, 109, 46, 101, 124, 10, 32, 32, 32, 32, 32, 32, 32, 48, 48, 48, 48, 48, 48, 56, 48, 32, 32, 48, 48, 32, 55, 51, 32, 48, 48, 32, 55, 51, 32, 48, 48, 32, 54, 49, 32, 32, 32, 32, 32, 32, 32, 32, 32, 32, 32, 32, 32, 32, 32, 32, 32, 32, 32, 32, 32, 32, 32, 32, 32, 32, 32, 32, 32, 32, 32, 32, 32, 124, 46, 115, 46, 115, 46, 97, 124, 10]) := by decide +kernel

/-- `smsdecode -o 410205912143f500088c05000301030200670065002c0020006100740020006c00650061007300740020006` -/
example : SmsDecode.text [52, 49, 48, 50, 48, 53, 57, 49, 50, 49, 52, 51, 102, 53, 48, 48, 48, 56, 56, 99, 48, 53, 48, 48, 48, 51, 48, 49, 48, 51, 48, 50, 48, 48, 54, 55, 48, 48, 54, 53, 48, 48, 50, 99, 48, 48, 50, 48, 48, 48, 54, 49, 48, 48, 55, 52, 48, 48, 50, 48, 48, 48, 54, 99, 48, 48, 54, 53, 48, 48, 54, 49, 48, 48, 55, 51, 48, 48, 55, 52, 48, 48, 50, 48, 48, 48, 54, 57, 48, 48, 55, 52, 48, 48, 50, 48, 48, 48, 55, 55, 48, 48, 54, 57, 48, 48, 54, 99, 48, 48, 54, 99, 48, 48, 50, 48, 48, 48, 54, 57, 48, 48, 54, 54, 48, 48, 50, 48, 48, 48, 52, 57, 48, 48, 50, 48, 48, 48, 54, 98, 48, 48, 54, 53, 48, 48, 54, 53, 48, 48, 55, 48, 48, 48, 50, 48, 48, 48, 54, 49, 48, 48, 54, 52, 48, 48, 54, 52, 48, 48, 54, 57, 48, 48, 54, 101, 48, 48, 54, 55, 48, 48, 50, 48, 48, 48, 54, 100, 48, 48, 54, 102, 48, 48, 55, 50, 48, 48, 54, 53, 48, 48, 50, 48, 48, 48, 55, 52, 48, 48, 54, 102, 48, 48, 50, 48, 48, 48, 54, 57, 48, 48, 55, 52, 48, 48, 50, 48, 48, 48, 54, 49, 48, 48, 55, 51, 48, 48, 50, 48, 48, 48, 51, 49, 48, 48, 51, 54, 48, 48, 51, 48, 48, 48, 50, 48, 48, 48, 54, 51, 48, 48, 54, 56, 48, 48, 54, 49, 48, 48, 55, 50, 48, 48, 54, 49, 48, 48, 54, 51, 48, 48, 55, 52, 48, 48, 54, 53, 48, 48, 55, 50, 48, 48, 55, 51, 48, 48, 50, 48] false true = .ok (.ok
  [84, 80, 68, 85, 58, 32, 83, 77, 83, 45, 83, 85, 66, 77, 73, 84, 10, 84, 80, 45, 77, 84, 73, 58, 32, 48, 120, 48, 49, 32, 83, 117, 98, 109, 105, 116, 10, 84, 80, 45, 82, 68, 58, 32, 102, 97, 108, 115, 101, 10, 84, 80, 45, 86, 80, 70, 58, 32, 48, 120, 48, 48, 32, 78, 111, 116, 32, 80, 114, 101, 115, 101, 110, 116, 10, 84, 80, 45, 82, 80, 58, 32, 102, 97, 108, 115, 101, 10, 84, 80, 45, 85, 68, 72, 73, 58, 32, 116, 114, 117, 101, 10, 84, 80, 45, 83, 82, 82, 58, 32, 102, 97, 108, 115, 101, 10, 84, 80, 45, 77, 82, 58, 32, 50, 10, 84, 80, 45, 68, 65, 58, 32, 43, 49, 50, 51, 52, 53, 10, 84, 80, 45, 80, 73, 68, 58, 32, 48, 120, 48, 48, 10, 84, 80, 45, 68, 67, 83, 58, 32, 48, 120, 48, 56, 32, 85, 67, 83, 45, 50, 10, 84, 80, 45, 86, 80, 58, 32, 78, 111, 116, 32, 80, 114, 101, 115, 101, 110, 116, 10, 84, 80, 45, 85, 68, 72, 58, 32, 73, 68, 58, 32, 48, 32, 32, 68, 97, 116, 97, 58, 32, 91, 49, 32, 51, 32, 50, 93, 10, 84, 80, 45, 85, 68, 58, 32, 48, 48, 48, 48, 48, 48, 48, 48, 32, 32, 48, 48, 32, 54, 55, 32, 48, 48, 32, 54, 53, 32, 48, 48, 32, 50, 99, 32, 48, 48, 32, 50, 48, 32, 32, 48, 48, 32, 54, 49, 32, 48, 48, 32, 55, 52, 32, 48, 48, 32, 50, 48, 32, 48, 48, 32, 54, 99, 32, 32, 124, 46, 103, 46, 101, 46, 44, 46, 32, 46, 97, 46, 116, 46, 32, 46, 108, 124, 10, 32, 32, 32, 32, 32, 32, 32, 48, 48, 48, 48, 48, 48, 49, 48, 32, 32, 48, 48, 32, 54, 53, 32, 48, 48, 32, 54, 49, 32, 48, 48, 32, 55, 51, 32, 48, 48, 32, 55, 52, 32, 32, 48, 48, 32, 50, 48, 32, 48, 48, 32, 54, 57, 32, 48, 48, 32, 55, 52, 32, 48, 48, 32, 50, 48, 32, 32, 124, 46, 101, 46, 97, 46, 115, 46, 116, 46, 32, 46, 105, 46, 116, 46, 32, 124, 10, 32, 32, 32, 32, 32, 32, 32, 48, 48, 48, 48, 48, 48, 50, 48, 32, 32, 48, 48, 32, 55, 55, 32, 48, 48, 32, 54, 57, 32, 48, 48, 32, 54, 99, 32, 48, 48, 32, 54, 99, 32, 32, 48, 48, 32, 50, 48, 32, 48, 48, 32, 54, 57, 32, 48, 48, 32, 54, 54, 32, 48, 48, 32, 50, 48, 32, 32, 124, 46, 119, 46, 105, 46, 108, 46, 108, 46, 32, 46, 105, 46, 102, 46, 32, 124, 10, 32, 32, 32, 32, 32, 32, 32, 48, 48, 48, 48, 48, 48, 51, 48, 32, 32, 48, 48, 32, 52, 57, 32, 48, 48, 32, 50, 48, 32, 48, 48, 32, 54, 98, 32, 48, 48, 32, 54, 53, 32, 32, 48, 48, 32, 54, 53, 32, 48, 48, 32, 55, 48, 32, 48, 48, 32, 50, 48, 32, 48, 48, 32, 54, 49, 32, 32, 124, 46, 73, 46, 32, 46, 107, 46, 101, 46, 101, 46, 112, 46, 32, 46, 97, 124, 10, 32, 32, 32, 32, 32, 32, 32, 48, 48, 48, 48, 48, 48, 52, 48, 32, 32, 48, 48, 32, 54, 52, 32, 48, 48, 32, 54, 52, 32, 48, 48, 32, 54, 57, 32, 48, 48, 32, 54, 101, 32, 32, 48, 48, 32, 54, 55, 32, 48, 48, 32, 50, 48, 32, 48, 48, 32, 54, 100, 32, 48, 48, 32, 54, 102, 32, 32, 124, 46, 100, 46, 100, 46, 105, 46, 110, 46, 103, 46, 32, 46, 109, 46, 111, 124, 10, 32, 32, 32, 32, 32, 32, 32, 48, 48, 48, 48, 48, 48, 53, 48, 32, 32, 48, 48, 32, 55, 50, 32, 48, 48, 32, 54, 53, 32, 48, 48, 32, 50, 48, 32, 48, 48, 32, 55, 52, 32, 32, 48, 48, 32, 54, 102, 32, 48, 48, 32, 50, 48, 32, 48, 48, 32, 54, 57, 32, 48, 48, 32, 55, 52, 32, 32, 124, 46, 114, 46, 101, 46, 32, 46, 116, 46, 111, 46, 32, 46, 105, 46, 116, 124, 10, 32, 32, 32, 32, 32, 32, 32, 48, 48, 48, 48, 48, 48, 54, 48, 32, 32, 48, 48, 32, 50, 48, 32, 48, 48, 32, 54, 49, 32, 48, 48, 32, 55, 51, 32, 48, 48, 32, 50, 48, 32, 32, 48, 48, 32, 51, 49, 32, 48, 48, 32, 51, 54, 32, 48, 48, 32, 51, 48, 32, 48, 48, 32, 50, 48, 32, 32, 124, 46, 32, 46, 97, 46, 115, 46, 32, 46, 49, 46, 54, 46, 48, 46, 32, 124, 10, 32, 32, 32, 32, 32, 32, 32, 48, 48, 48, 48, 48, 48, 55, 48, 32, 32, 48, 48, 32, 54, 51, 32, 48, 48, 32, 54, 56, 32, 48, 48, 32, 54, 49, 32, 48, 48, 32, 55, 50, 32, 32, 48, 48, 32, 54, 49, 32, 48, 48, 32, 54, 51, 32, 48, 48, 32, 55, 52, 32, 48, 48, 32, 54, 53, 32, 32, 124, 46, 99, 46, 104, 46, 97, 46, 114, 46, 97, 46, 99, 46, 116, 46, 101, 124, 10, 32, 32, 32, 32, 32, 32, 32, 48, 48, 48, 48, 48, 48, 56, 48, 32, 32, 48, 48, 32, 55, 50, 32, 48, 48, 32, 55, 51, 32, 48, 48, 32, 50, 48, 32, 32, 32, 32, 32, 32, 32, 32, 32, 32, 32, 32, 32, 32, 32, 32, 32, 32, 32, 32, 32, 32, 32, 32, 32, 32, 32, 32, 32, 32, 32, 32, 32, 124, 46, 114, 46, 115, 46, 32, 124, 10]) := by decide +kernel

/-! encoding/tpdu/validityperiod_test.go, TestVPFString. -/

example : ValidityPeriodFormat.String 0 = [78, 111, 116, 32, 80, 114, 101, 115, 101, 110, 116] := by decide +kernel
example : ValidityPeriodFormat.String 1 = [69, 110, 104, 97, 110, 99, 101, 100] := by decide +kernel
example : ValidityPeriodFormat.String 2 = [82, 101, 108, 97, 116, 105, 118, 101] := by decide +kernel
example : ValidityPeriodFormat.String 3 = [65, 98, 115, 111, 108, 117, 116, 101] := by decide +kernel
example : ValidityPeriodFormat.String 4 = [85, 110, 107, 110, 111, 119, 110] := by decide +kernel

/-! encoding/tpdu/validityperiod_test.go, TestEVPFString. -/

example : EnhancedValidityPeriodFormat.String 0 = [78, 111, 116, 32, 80, 114, 101, 115, 101, 110, 116] := by decide +kernel
example : EnhancedValidityPeriodFormat.String 1 = [82, 101, 108, 97, 116, 105, 118, 101] := by decide +kernel
example : EnhancedValidityPeriodFormat.String 2 = [82, 101, 108, 97, 116, 105, 118, 101, 32, 83, 101, 99, 111, 110, 100, 115] := by decide +kernel
example : EnhancedValidityPeriodFormat.String 3 = [82, 101, 108, 97, 116, 105, 118, 101, 32, 72, 72, 77, 77, 83, 83] := by decide +kernel
example : EnhancedValidityPeriodFormat.String 4 = [85, 110, 107, 110, 111, 119, 110] := by decide +kernel

/-! encoding/tpdu/parameterindicator_test.go, TestParameterIndicatorString. -/

example : PI.String 0 = [48] := by decide +kernel
example : PI.String 1 = [80, 73, 68] := by decide +kernel
example : PI.String 2 = [68, 67, 83] := by decide +kernel
example : PI.String 4 = [85, 68, 76] := by decide +kernel
example : PI.String 3 = [80, 73, 68, 124, 68, 67, 83] := by decide +kernel
example : PI.String 5 = [80, 73, 68, 124, 85, 68, 76] := by decide +kernel
example : PI.String 6 = [68, 67, 83, 124, 85, 68, 76] := by decide +kernel
example : PI.String 7 = [80, 73, 68, 124, 68, 67, 83, 124, 85, 68, 76] := by decide +kernel

/-! encoding/tpdu/tpdu_test.go, TestMessageTypeString. -/

example : MessageType.String 0 = [68, 101, 108, 105, 118, 101, 114] := by decide +kernel
example : MessageType.String 1 = [83, 117, 98, 109, 105, 116] := by decide +kernel
example : MessageType.String 2 = [67, 111, 109, 109, 97, 110, 100] := by decide +kernel
example : MessageType.String 3 = [85, 110, 107, 110, 111, 119, 110] := by decide +kernel

/-! encoding/tpdu/tpdu_test.go, TestSmsTypeString. -/

example : SmsType.String 0 = [83, 109, 115, 68, 101, 108, 105, 118, 101, 114] := by decide +kernel
example : SmsType.String 1 = [83, 109, 115, 68, 101, 108, 105, 118, 101, 114, 82, 101, 112, 111, 114, 116] := by decide +kernel
example : SmsType.String 2 = [83, 109, 115, 83, 117, 98, 109, 105, 116, 82, 101, 112, 111, 114, 116] := by decide +kernel
example : SmsType.String 3 = [83, 109, 115, 83, 117, 98, 109, 105, 116] := by decide +kernel
example : SmsType.String 4 = [83, 109, 115, 83, 116, 97, 116, 117, 115, 82, 101, 112, 111, 114, 116] := by decide +kernel
example : SmsType.String 5 = [83, 109, 115, 67, 111, 109, 109, 97, 110, 100] := by decide +kernel
example : SmsType.String 6 = [85, 110, 107, 110, 111, 119, 110] := by decide +kernel

/-! encoding/tpdu/dcs_test.go, TestDCSString. -/

example : DCS.String 0 = [48, 120, 48, 48, 32, 55, 98, 105, 116] := by decide +kernel
example : DCS.String 244 = [48, 120, 102, 52, 32, 56, 98, 105, 116] := by decide +kernel
example : DCS.String 224 = [48, 120, 101, 48, 32, 85, 67, 83, 45, 50] := by decide +kernel
example : DCS.String 128 = [48, 120, 56, 48] := by decide +kernel

/-! encoding/tpdu/timestamp_test.go, TestTimestampString. -/

example : Timestamp.String { GoTime.date 2000 11 2 3 4 5 22800 with nsec := 65 } = [50, 48, 48, 48, 45, 49, 49, 45, 48, 50, 32, 48, 51, 58, 48, 52, 58, 48, 53, 32, 43, 48, 54, 50, 48] := by decide +kernel
example : Timestamp.String { GoTime.date 2000 11 2 3 4 5 22800 with nsec := 0 } = [50, 48, 48, 48, 45, 49, 49, 45, 48, 50, 32, 48, 51, 58, 48, 52, 58, 48, 53, 32, 43, 48, 54, 50, 48] := by decide +kernel
example : Timestamp.String { GoTime.date 2000 11 2 3 4 5 0 with nsec := 0 } = [50, 48, 48, 48, 45, 49, 49, 45, 48, 50, 32, 48, 51, 58, 48, 52, 58, 48, 53, 32, 43, 48, 48, 48, 48] := by decide +kernel

end Verif.Vectors
