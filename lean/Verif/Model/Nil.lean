import Verif.Model.Sms

/-! Model of `Decode` and `IsCompleteMessage` of package sms on what they take, slices of pointers.  `Sms.Decode` and
`Sms.IsCompleteMessage` (Model/Sms.lean) are the same functions on slices without nil pointers. -/

namespace Verif.Model

namespace Sms

/-- The loop of `Decode`, sms.go:34-61, on pointers: `s.Alphabet()` (sms.go:35) of a nil pointer reads `t.DCS`. -/
def decodePtrLoop (opts : List CharsetOpt) : List (Option TPDU) → Bytes → M Bytes
  | [], dangling => if dangling ≠ [] then fail (.ucs2Dangling dangling) else .ok []
  | none :: _, _ => panicM .nil
  | some s :: ss, dangling =>
    let a := s.Alphabet.1
    let ud := if dangling ≠ [] then dangling ++ s.UD else s.UD
    let d := DecodeUserData ud s.UDH a opts
    match d.err with
    | none => do
      let rest ← decodePtrLoop opts ss []
      return d.text ++ rest
    | some (.ucs2Dangling e) => do
      let rest ← decodePtrLoop opts ss e
      return d.text ++ rest
    | some e => fail e

/-- `Decode`, sms.go:23-61, on pointers. -/
def DecodePtrs (segments : List (Option TPDU)) (options : List CharsetOpt) : M Bytes :=
  decodePtrLoop (decodeOpts options) segments []

/-- The loop of `IsCompleteMessage`, sms.go:76-90, on pointers: `s.ConcatInfo()` (sms.go:77) of a nil pointer reads
`t.UDH`. -/
def completePtrLoop (baseSegs baseRef : Nat) : List (Option TPDU) → Nat → M Bool
  | [], _ => .ok true
  | none :: _, _ => panicM .nil
  | some s :: ss, i =>
    match s.ConcatInfo with
    | none => .ok false
    | some c =>
      if c.segments ≠ baseSegs then .ok false
      else if c.mref ≠ baseRef then .ok false
      else if c.seqno ≠ i + 1 then .ok false
      else completePtrLoop baseSegs baseRef ss (i + 1)

/-- `IsCompleteMessage`, sms.go:65-92, on pointers; `segments[0].ConcatInfo()` is sms.go:69. -/
def IsCompleteMessagePtrs (segments : List (Option TPDU)) : M Bool :=
  match segments with
  | [] => .ok false
  | none :: _ => panicM .nil
  | some s :: _ =>
    match s.ConcatInfo with
    | none => .ok (segments.length = 1)
    | some base =>
      if base.segments ≠ segments.length then .ok false
      else completePtrLoop base.segments base.mref segments 0

end Sms

end Verif.Model
