import Verif.Model.Alias
import Verif.Model.PduMode

/-!
`TPDU.UnmarshalBinary` and the memory it reads from and writes to.  Elsewhere in the model what is unmarshalled is a value;
here the octets come in a slice of some array, and the user data and the data of each information element of the result are
slices too, so that it can be said which arrays they are in.  Addresses are strings in Go, and the other fields are numbers
and times; they remain values.  The array that holds the elements of the header themselves is always a new one
(userdata.go:78-92 appends to a nil slice) and remains a list.
-/

namespace Verif.Model.Buffer
open Alias

/-- Code that reads and writes arrays of octets and may fail: the outcome, and the memory afterwards. -/
def Heap (α : Type) : Type := Mem UInt8 → M α × Mem UInt8

namespace Heap

/-- Returning a value. -/
def ret {α : Type} (a : α) : Heap α := fun m => (.ok a, m)

/-- One statement after the other; an error ends the function. -/
def seq {α β : Type} (h : Heap α) (f : α → Heap β) : Heap β := fun m =>
  match h m with
  | (.ok a, m) => f a m
  | (.error e, m) => (.error e, m)

instance : Monad Heap where
  pure := ret
  bind := seq

/-- An expression that neither reads nor writes arrays. -/
def eval {α : Type} (v : M α) : Heap α := fun m => (v, m)

/-- The octets of a slice. -/
def read (s : Slice) : Heap Bytes := fun m => (.ok (m.read s), m)

/-- `if err != nil { return NewDecodeError(f, o, err) }` -/
def wrap {α : Type} (f : String) (o : Nat) (h : Heap α) : Heap α := fun m => ((wrapD f o (h m).1), (h m).2)

end Heap

open Heap

/-- A nil slice. -/
def nilSlice : Slice := ⟨0, 0, 0, 0⟩

/-- `append([]byte(nil), b...)`.  Also used for what a function has put into a slice of its own. -/
def copyOf (grow : Nat → Nat) (b : Bytes) : Heap Slice := fun m => (.ok (m.append grow nilSlice b).2, (m.append grow nilSlice b).1)

/-- `src[n:]`, for `n` up to the length. -/
def from_ (s : Slice) (n : Nat) : Slice := ⟨s.arr, s.off + n, s.len - n, s.cap - n⟩

/-- `InformationElement` (userdata.go:20-26). -/
structure Elem where
  ID : UInt8
  data : Slice
  deriving DecidableEq, Repr

/-- A TPDU in memory; the fields `UD` and `UDH` of `pdu` are not used. -/
structure Loaded where
  pdu : TPDU
  ud : Slice
  udh : List Elem
  deriving DecidableEq

/-- The element as a value. -/
def Elem.load (m : Mem UInt8) (e : Elem) : IE := ⟨e.ID, m.read e.data⟩

/-- The TPDU as a value. -/
def Loaded.load (m : Mem UInt8) (o : Loaded) : TPDU := { o.pdu with UD := m.read o.ud, UDH := o.udh.map (·.load m) }

/-- The loop of `UserDataHeader.UnmarshalBinary`, userdata.go:79-94; `ie.Data` is a copy (:91). -/
def unmarshalLoop (grow : Nat → Nat) (src : Slice) (udhl : Nat) : Nat → Nat → Heap (List Elem)
  | 0, _ => eval (panicM .diverge)
  | fuel + 1, ri => do
    let b ← read src
    if ri < udhl then
      if udhl < ri + 2 then eval (fail (newDecodeError "ie" ri .underflow))
      else do
        let id ← eval (idx b ri)
        let iedl ← eval (idx b (ri + 1 : Nat))
        if b.length < ri + 2 + iedl.toNat then eval (fail (newDecodeError "ied" (ri + 2) .underflow))
        else do
          let data ← eval (slice b (ri + 2 : Nat) (ri + 2 + iedl.toNat : Nat))
          let s ← copyOf grow data
          let rest ← unmarshalLoop grow src udhl fuel (ri + 2 + iedl.toNat)
          return ⟨id, s⟩ :: rest
    else return []

/-- `UserDataHeader.UnmarshalBinary`, userdata.go:68-97. -/
def unmarshalUDH (grow : Nat → Nat) (src : Slice) : Heap (List Elem × Nat) := do
  let b ← read src
  if b.length < 1 then eval (fail (newDecodeError "udhl" 0 .underflow))
  else do
    let l ← eval (idx b 0)
    if b.length < l.toNat + 1 then eval (fail (newDecodeError "ie" 1 .underflow))
    else do
      let ies ← unmarshalLoop grow src (l.toNat + 1) (l.toNat + 1) 1
      return (ies, l.toNat + 1)

/-- `TPDU.decodeUserData`, tpdu.go:833-891, for a receiver without user data or header.  Septets are put into a slice made by
`Unpack7Bit` (7bit.go:53), of which a first and a last septet may be dropped; here it is one of just the septets that remain,
with unused capacity.  Other user data is copied (tpdu.go:887). -/
def decodeUserData (grow : Nat → Nat) (t : TPDU) (src : Slice) : Heap Loaded := do
  let b ← read src
  if b.length < 1 then eval (fail (newDecodeError "udl" 0 .underflow))
  else do
    let udl ← eval (idx b 0)
    if udl.toNat = 0 then return ⟨t, nilSlice, []⟩
    else match t.Alphabet with
    | (_, some e) => eval (fail (newDecodeError "alphabet" 1 e))
    | (alphabet, none) =>
      let sml7 := if alphabet = .a7Bit then udl.toNat else 0
      let n := if alphabet = .a7Bit then (sml7 * 7 + 7) / 8 else udl.toNat
      if b.length < 1 + n then eval (fail (newDecodeError "sm" 1 .underflow))
      else if b.length > 1 + n then eval (fail (newDecodeError "ud" 1 .overlength))
      else do
        let (udh, udhl) ← (if t.UDHI then wrap "udh" 1 (unmarshalUDH grow (from_ src 1)) else ret ([], 0) : Heap (List Elem × Nat))
        if 1 + udhl = b.length then return ⟨t, nilSlice, udh⟩
        else do
          let s ← eval (slice b (1 + udhl : Nat) b.length)
          if alphabet = .a7Bit then do
            let sm ← eval (wrapD "sm" (1 + udhl) (decode7Bit sml7 udhl s))
            let ud ← copyOf grow sm
            return ⟨t, ud, udh⟩
          else if alphabet = .ucs2 ∧ s.length % 2 = 1 then eval (fail (newDecodeError "sm" (1 + udhl) .oddUCS2Length))
          else do
            let ud ← copyOf grow s
            return ⟨t, ud, udh⟩

/-- `unmarshalCommand`, tpdu.go:597-626; see `TPDU.unmarshalCommand`.  `b.Bytes()` is what is left of `src`. -/
def unmarshalCommand (grow : Nat → Nat) (t : TPDU) (src : Slice) : Heap Loaded := do
  let s ← read src
  let b := s
  let (mr, b) ← eval (wrapD "mr" (s.length - b.length) (TPDU.readByte b))
  let (pid, b) ← eval (wrapD "pid" (s.length - b.length) (TPDU.readByte b))
  let (ct, b) ← eval (wrapD "ct" (s.length - b.length) (TPDU.readByte b))
  let (mn, b) ← eval (wrapD "mn" (s.length - b.length) (TPDU.readByte b))
  let (da, n) ← eval (wrapD "da" (s.length - b.length) (Address.UnmarshalBinary b))
  let b := b.drop n
  let t := { t with MR := mr, PID := pid, CT := ct, MN := mn, DA := da, DCS := DCS.Dcs8BitData }
  wrap "ud" (s.length - b.length) (decodeUserData grow t (from_ src (s.length - b.length)))

/-- `unmarshalDeliver`, tpdu.go:628-653. -/
def unmarshalDeliver (grow : Nat → Nat) (t : TPDU) (src : Slice) : Heap Loaded := do
  let s ← read src
  let (oa, n) ← eval (wrapD "oa" 0 (Address.UnmarshalBinary s))
  let b ← eval (slice s n s.length)
  let (pid, b) ← eval (wrapD "pid" (s.length - b.length) (TPDU.readByte b))
  let (dcs, b) ← eval (wrapD "dcs" (s.length - b.length) (TPDU.readByte b))
  let scts ← eval (wrapD "scts" (s.length - b.length) (Timestamp.UnmarshalBinary b))
  let b := b.drop 7
  let t := { t with OA := oa, PID := pid, DCS := dcs, SCTS := scts }
  wrap "ud" (s.length - b.length) (decodeUserData grow t (from_ src (s.length - b.length)))

/-- The optional fields announced by `t.PI`, tpdu.go:667-686, :733-752, :809-828; see `TPDU.unmarshalOptionals`. -/
def unmarshalOptionals (grow : Nat → Nat) (t : TPDU) (src : Slice) (ri : Nat) : Heap Loaded := do
  let s ← read src
  let (t, ri) ← eval (
    if PI.PID t.PI then do
      let b ← TPDU.readAt "pid" s ri
      return ({ t with PID := b }, ri + 1)
    else .ok (t, ri) : M (TPDU × Nat))
  let (t, ri) ← eval (
    if PI.DCS t.PI then do
      let b ← TPDU.readAt "dcs" s ri
      return ({ t with DCS := b }, ri + 1)
    else .ok (t, ri) : M (TPDU × Nat))
  if PI.UDL t.PI then do
    let _ ← eval (slice s ri s.length)
    wrap "ud" ri (decodeUserData grow t (from_ src ri))
  else return ⟨t, nilSlice, []⟩

/-- `unmarshalDeliverReport`, tpdu.go:655-688. -/
def unmarshalDeliverReport (grow : Nat → Nat) (t : TPDU) (src : Slice) : Heap Loaded := do
  let s ← read src
  let fcs ← eval (TPDU.readAt "fcs" s 0)
  let pi ← eval (TPDU.readAt "pi" s 1)
  unmarshalOptionals grow { t with FCS := fcs, PI := pi } src 2

/-- `unmarshalStatusReport` and `unmarshalSROptionals`, tpdu.go:690-754. -/
def unmarshalStatusReport (grow : Nat → Nat) (t : TPDU) (src : Slice) : Heap Loaded := do
  let b ← read src
  let mr ← eval (TPDU.readAt "mr" b 0)
  let ri : Nat := 1
  let s ← eval (slice b ri b.length)
  let (ra, n) ← eval (wrapD "ra" ri (Address.UnmarshalBinary s))
  let ri : Nat := ri + n
  if b.length < ri + 7 then eval (fail (newDecodeError "scts" ri .underflow))
  else do
    let s ← eval (slice b ri (ri + 7 : Nat))
    let scts ← eval (wrapD "scts" ri (Timestamp.UnmarshalBinary s))
    let ri : Nat := ri + 7
    if b.length < ri + 7 then eval (fail (newDecodeError "dt" ri .underflow))
    else do
      let s ← eval (slice b ri (ri + 7 : Nat))
      let dt ← eval (wrapD "dt" ri (Timestamp.UnmarshalBinary s))
      let ri : Nat := ri + 7
      let st ← eval (TPDU.readAt "st" b ri)
      let ri : Nat := ri + 1
      let t := { t with MR := mr, RA := ra, SCTS := scts, DT := dt, ST := st }
      if b.length > ri then do
        let pi ← eval (idx b ri)
        unmarshalOptionals grow { t with PI := pi } src (ri + 1)
      else return ⟨t, nilSlice, []⟩

/-- `unmarshalSubmit`, tpdu.go:756-787. -/
def unmarshalSubmit (grow : Nat → Nat) (t : TPDU) (src : Slice) : Heap Loaded := do
  let b ← read src
  let mr ← eval (TPDU.readAt "mr" b 0)
  let ri : Nat := 1
  let s ← eval (slice b ri b.length)
  let (da, n) ← eval (wrapD "da" ri (Address.UnmarshalBinary s))
  let ri : Nat := ri + n
  let pid ← eval (TPDU.readAt "pid" b ri)
  let ri : Nat := ri + 1
  let dcs ← eval (TPDU.readAt "dcs" b ri)
  let ri : Nat := ri + 1
  let s ← eval (slice b ri b.length)
  let (vp, n) ← eval (wrapD "vp" ri (t.VP.UnmarshalBinary s (FirstOctet.VPF t.FirstOctet)))
  let ri : Nat := ri + n
  let t := { t with MR := mr, DA := da, PID := pid, DCS := dcs, VP := vp }
  let _ ← eval (slice b ri b.length)
  wrap "ud" ri (decodeUserData grow t (from_ src ri))

/-- `unmarshalSubmitReport`, tpdu.go:789-830. -/
def unmarshalSubmitReport (grow : Nat → Nat) (t : TPDU) (src : Slice) : Heap Loaded := do
  let b ← read src
  let fcs ← eval (TPDU.readAt "fcs" b 0)
  let pi ← eval (TPDU.readAt "pi" b 1)
  let ri : Nat := 2
  if b.length < ri + 7 then eval (fail (newDecodeError "scts" ri .underflow))
  else do
    let s ← eval (slice b ri (ri + 7 : Nat))
    let scts ← eval (wrapD "scts" ri (Timestamp.UnmarshalBinary s))
    unmarshalOptionals grow { t with FCS := fcs, PI := pi, SCTS := scts } src (ri + 7)

/-- `sms.Unmarshal`, sms.go:100-111, with `TPDU.UnmarshalBinary`, tpdu.go:568-595. -/
def Unmarshal (grow : Nat → Nat) (src : Slice) (dirn : Int) : Heap Loaded := do
  let b ← read src
  if b.length < 1 then eval (fail (newDecodeError "tpdu.firstOctet" 0 .underflow))
  else do
    let fo ← eval (idx b 0)
    let t : TPDU := { Direction := dirn, FirstOctet := fo }
    let st := t.SmsType
    if st = SmsDeliver then wrap (smsTypeString st) 1 (unmarshalDeliver grow t (from_ src 1))
    else if st = SmsDeliverReport then wrap (smsTypeString st) 1 (unmarshalDeliverReport grow t (from_ src 1))
    else if st = SmsSubmitReport then wrap (smsTypeString st) 1 (unmarshalSubmitReport grow t (from_ src 1))
    else if st = SmsSubmit then wrap (smsTypeString st) 1 (unmarshalSubmit grow t (from_ src 1))
    else if st = SmsStatusReport then wrap (smsTypeString st) 1 (unmarshalStatusReport grow t (from_ src 1))
    else if st = SmsCommand then wrap (smsTypeString st) 1 (unmarshalCommand grow t (from_ src 1))
    else eval (fail (newDecodeError "tpdu.firstOctet" 0 (.unsupportedSmsType st)))

/-- `pdumode.UnmarshalBinary`, pdu.go:23-31, :45-52: the SMSC and the octets of the TPDU, which are not copied (:50). -/
def unmarshalPDU (src : Slice) : Heap (Address × Slice) := do
  let b ← read src
  let (smsc, n) ← eval (SMSCAddress.UnmarshalBinary {} b)
  let _ ← eval (slice b n b.length)
  return (smsc, from_ src n)

end Verif.Model.Buffer
