import Verif.Model.Dcs
import Verif.Model.Ucs2
import Verif.Model.Gsm7

/-! Model of encoding/tpdu/userdata.go. -/

namespace Verif.Model

/-- `InformationElement`, userdata.go:28-31. -/
structure IE where
  ID : UInt8
  Data : Bytes
  deriving DecidableEq, Repr, Inhabited

/-- `UserDataHeader`, userdata.go:24.  A nil slice and an empty slice are both `[]`; setters whose effect
depends on nil take an `Option`. -/
abbrev UDH := List IE

namespace UDH

/-- `marshalledLen` and `UDHL`, userdata.go:33-44. -/
def UDHL (udh : UDH) : Nat := (udh.map (fun ie => 2 + ie.Data.length)).sum

/-- `UserDataHeader.MarshalBinary`, userdata.go:48-60 (never fails). -/
def MarshalBinary (udh : UDH) : Bytes :=
  if udh.length = 0 then []
  else byteOf udh.UDHL :: udh.flatMap (fun ie => ie.ID :: byteOf ie.Data.length :: ie.Data)

/-- The loop of `UserDataHeader.UnmarshalBinary`, userdata.go:79-94.  Every iteration advances `ri` by at
least 2, so `fuel = udhl` suffices. -/
def unmarshalLoop (src : Bytes) (udhl : Nat) : Nat → Nat → M (List IE)
  | 0, _ => panicM .diverge
  | fuel + 1, ri =>
    if ri < udhl then
      if udhl < ri + 2 then fail (newDecodeError "ie" ri .underflow)
      else do
        let id ← idx src ri
        let iedl := (← idx src (ri + 1 : Nat)).toNat
        let ri : Nat := ri + 2
        if src.length < ri + iedl then fail (newDecodeError "ied" ri .underflow)
        else do
          let data ← slice src ri (ri + iedl : Nat)
          let rest ← unmarshalLoop src udhl fuel (ri + iedl)
          return ⟨id, data⟩ :: rest
    else .ok []

/-- `UserDataHeader.UnmarshalBinary`, userdata.go:68-97: the elements and the number of bytes read. -/
def UnmarshalBinary (src : Bytes) : M (UDH × Nat) :=
  if src.length < 1 then fail (newDecodeError "udhl" 0 .underflow)
  else do
    let udhl := (← idx src 0).toNat + 1
    let ri : Nat := 1
    if src.length < udhl then fail (newDecodeError "ie" ri .underflow)
    else do
      let ies ← unmarshalLoop src udhl udhl ri
      return (ies, udhl)

/-- `UserDataHeader.IE`, userdata.go:102-109: the last element with the given id. -/
def IE (udh : UDH) (id : UInt8) : Option Model.IE := udh.reverse.find? (fun ie => ie.ID = id)

/-- `UserDataHeader.IEs`, userdata.go:112-120. -/
def IEs (udh : UDH) (id : UInt8) : List Model.IE := udh.filter (fun ie => ie.ID = id)

/-- Result of `ConcatInfo` when `ok`: `(segments, seqno, mref)`. -/
structure Concat where
  segments : Nat
  seqno : Nat
  mref : Nat
  deriving DecidableEq, Repr

/-- `ConcatInfo8`, userdata.go:145-153. -/
def ConcatInfo8 (udh : UDH) : Option Concat :=
  match udh.IE 0x00 with
  | some ⟨_, [a, b, c]⟩ => some ⟨b.toNat, c.toNat, a.toNat⟩
  | _ => none

/-- `ConcatInfo16`, userdata.go:160-168. -/
def ConcatInfo16 (udh : UDH) : Option Concat :=
  match udh.IE 0x08 with
  | some ⟨_, [a, b, c, d]⟩ => some ⟨c.toNat, d.toNat, Ucs2.be16 a b⟩
  | _ => none

/-- `ConcatInfo`, userdata.go:129-138. -/
def ConcatInfo (udh : UDH) : Option Concat :=
  if udh.length = 0 then none
  else match udh.ConcatInfo8 with
    | some c => some c
    | none => udh.ConcatInfo16

end UDH

/-- The charset options of package tpdu, usable both as `UDEncodeOption` and `UDDecodeOption`,
userdata.go:240-347. -/
inductive CharsetOpt where
  | charset (nli : List Int)
  | locking (nli : List Int)
  | shift (nli : List Int)
  | all
  deriving DecidableEq, Repr

/-- `charset.Start .. charset.End-1`, charset.go:88-126. -/
def allNlis : List Int := [1, 2, 3, 4, 5, 6, 7, 8, 9, 10, 11, 12, 13]

/-- `udDecodeConfig` (sets of identifiers) and `udEncodeConfig` (lists), userdata.go:170-173, :224-227. -/
structure CharsetCfg where
  locking : List Int := []
  shift : List Int := []
  deriving DecidableEq, Repr

/-- `applyDecodeOption`, userdata.go:244-250, :266-271, :286-291, :302-308.  Map keys as a list. -/
def applyDecodeOption (c : CharsetCfg) : CharsetOpt → CharsetCfg
  | .charset n => ⟨c.locking ++ n, c.shift ++ n⟩
  | .locking n => { c with locking := c.locking ++ n }
  | .shift n => { c with shift := c.shift ++ n }
  | .all => ⟨c.locking ++ allNlis, c.shift ++ allNlis⟩

/-- `applyEncodeOption`, userdata.go:252-256, :273-276, :293-296, :310-317. -/
def applyEncodeOption (c : CharsetCfg) : CharsetOpt → CharsetCfg
  | .charset n => ⟨c.locking ++ n, c.shift ++ n⟩
  | .locking n => { c with locking := c.locking ++ n }
  | .shift n => { c with shift := c.shift ++ n }
  | .all => ⟨allNlis, allNlis⟩

/-- `shiftIEI`, `lockingIEI`, userdata.go:349-352. -/
def shiftIEI : UInt8 := 24
@[inherit_doc shiftIEI] def lockingIEI : UInt8 := 25

/-- The language identifier of a national language IE when it has one and it is permitted,
userdata.go:204-211, :212-219. -/
def nliOf (udh : UDH) (iei : UInt8) (permitted : List Int) : Option Int :=
  match udh.IE iei with
  | some ⟨_, b :: _⟩ => if (b.toNat : Int) ∈ permitted then some b.toNat else none
  | _ => none

/-- Result of `DecodeUserData`: Go returns bytes and an error together. -/
structure DecodeUD where
  text : Bytes
  err : Option Err
  deriving DecidableEq

/-- `DecodeUserData`, userdata.go:189-222. -/
def DecodeUserData (ud : Bytes) (udh : UDH) (alpha : Alphabet) (options : List CharsetOpt) : DecodeUD :=
  match alpha with
  | .ucs2 =>
    let d := Ucs2.Decode ud
    ⟨Unicode.encodeRunes d.runes, d.err⟩
  | .a8Bit => ⟨ud, none⟩
  | _ =>
    let cfg := options.foldl applyDecodeOption {}
    let o1 : List Gsm7.Option' := match nliOf udh lockingIEI cfg.locking with
      | some nli => [.charset nli]
      | none => []
    let o2 : List Gsm7.Option' := match nliOf udh shiftIEI cfg.shift with
      | some nli => [.extCharset nli]
      | none => []
    match Gsm7.Decode ud (o1 ++ o2) with
    | .ok t => ⟨t, none⟩
    | .error (.err e) => ⟨[], some e⟩
    | .error (.panic _) => ⟨[], none⟩  -- unreachable: `Gsm7.Decode` never panics (Props.C11)

/-- A candidate national language encoding: options for gsm7.Encode and the UDH announcing it. -/
structure Candidate where
  opts : List Gsm7.Option'
  udh : UDH

/-- First candidate that can encode the message (the `if err == nil return` chains of userdata.go:381-415). -/
def firstEncoding (msg : Bytes) : List Candidate → Option (Bytes × UDH)
  | [] => none
  | c :: cs =>
    match Gsm7.Encode msg c.opts with
    | .ok enc => some (enc, c.udh)
    | .error _ => firstEncoding msg cs

/-- Order in which `EncodeUserData` tries the language tables, userdata.go:381-415. -/
def candidates (cfg : CharsetCfg) : List Candidate :=
  (cfg.locking.map fun nli => ⟨[.charset nli], [⟨lockingIEI, [byteOf nli]⟩]⟩) ++
  (cfg.shift.map fun nli => ⟨[.extCharset nli], [⟨shiftIEI, [byteOf nli]⟩]⟩) ++
  (cfg.locking.flatMap fun nli => (cfg.shift.filter (fun snli => nli = snli)).map fun _ =>
    ⟨[.charset nli, .extCharset nli], [⟨lockingIEI, [byteOf nli]⟩, ⟨shiftIEI, [byteOf nli]⟩]⟩)

/-- `EncodeUserData`, userdata.go:371-421.  The UDH is nil exactly when it is `[]` here. -/
def EncodeUserData (msg : Bytes) (options : List CharsetOpt) : Bytes × UDH × Alphabet :=
  match Gsm7.Encode msg [] with
  | .ok enc => (enc, [], .a7Bit)
  | .error _ =>
    let cfg := options.foldl applyEncodeOption {}
    match firstEncoding msg (candidates cfg) with
    | some (enc, udh) => (enc, udh, .a7Bit)
    | none => (Ucs2.Encode (Unicode.decodeRunes msg), [], .ucs2)

end Verif.Model
