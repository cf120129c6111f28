import Verif.Model.Sms

/-!
Slices and the memory they refer to.  Elsewhere in the model a slice is the list of its elements; this file
keeps track of the arrays behind `UD`, `UDH` and the encoder options in the functions that append to slices
they do not own: `Decode` (sms.go:23-61), `Segment` (tpdu.go:189-229) and the charset options of
`Encoder.Encode` (options.go:98-158, encode.go:89-92).  The contents of `InformationElement.Data` are never
written by these functions and remain values.
-/

namespace Verif.Model.Alias

/-- A slice: `len` elements from position `off` of array `arr`, which extends to position `off + cap`.  A nil
slice is one of length and capacity 0. -/
structure Slice where
  arr : Nat
  off : Nat
  len : Nat
  cap : Nat
  deriving DecidableEq, Repr

/-- Arrays of elements of one type; the arrays allocated so far are those below `next`. -/
structure Mem (α : Type) where
  next : Nat
  get : Nat → Nat → α

variable {α : Type}

/-- The elements of a slice. -/
def Mem.read (m : Mem α) (s : Slice) : List α := (List.range s.len).map fun i => m.get s.arr (s.off + i)

/-- Storing `xs` at position `pos` of array `arr`. -/
def Mem.write (m : Mem α) (arr pos : Nat) (xs : List α) : Mem α where
  next := m.next
  get a p := if a = arr ∧ pos ≤ p then (match xs[p - pos]? with | some x => x | none => m.get a p) else m.get a p

/-- `append(s, xs...)`: in place when the capacity suffices, otherwise into a new array, of which `grow n`
elements remain unused when `n` are needed (the growth policy of the runtime is left open). -/
def Mem.append (grow : Nat → Nat) (m : Mem α) (s : Slice) (xs : List α) : Mem α × Slice :=
  let n := s.len + xs.length
  if n ≤ s.cap then (m.write s.arr (s.off + s.len) xs, { s with len := n })
  else (({ m with next := m.next + 1 } : Mem α).write m.next 0 (m.read s ++ xs), ⟨m.next, 0, n, n + grow n⟩)

/-! ### Decode -/

/-- A segment given to `Decode`: the TPDU, with its user data in memory (the field `pdu.UD` is not used). -/
structure Seg where
  pdu : TPDU
  ud : Slice

/-- The segment as a value. -/
def Seg.load (m : Mem UInt8) (s : Seg) : TPDU := { s.pdu with UD := m.read s.ud }

/-- An element of `ts`, sms.go:32: a slice for 8-bit data (userdata.go:194-195), otherwise newly allocated. -/
inductive Piece where
  | slice (s : Slice)
  | fresh (b : Bytes)

/-- The octets of a piece. -/
def Piece.read (m : Mem UInt8) : Piece → Bytes
  | .slice s => m.read s
  | .fresh b => b

/-- The loop of `Decode`, sms.go:34-55: the memory afterwards, and the pieces or the error.  `ErrDanglingSurrogate`
is `src[ri:]`, a slice of the user data decoded (ucs2.go:32). -/
def decodeLoop (grow : Nat → Nat) (opts : List CharsetOpt) : List Seg → Option Slice → Mem UInt8 → Mem UInt8 × M (List Piece)
  | [], dangling, m => (m, match dangling with
      | none => .ok []
      | some d => fail (.ucs2Dangling (m.read d)))
  | s :: ss, dangling, m =>
    let (m, ud) := match dangling with
      | none => (m, s.ud)
      | some d => m.append grow d (m.read s.ud)
    let a := s.pdu.Alphabet.1
    let r := DecodeUserData (m.read ud) s.pdu.UDH a opts
    let piece := if a = .a8Bit then Piece.slice ud else .fresh r.text
    match r.err with
    | none =>
      let (m, ps) := decodeLoop grow opts ss none m
      (m, ps.map (piece :: ·))
    | some (.ucs2Dangling e) =>
      let ri := ud.len - e.length
      let (m, ps) := decodeLoop grow opts ss (some ⟨ud.arr, ud.off + ri, ud.len - ri, ud.cap - ri⟩) m
      (m, ps.map (piece :: ·))
    | some e => (m, fail e)

/-- `Decode`, sms.go:23-61: the memory afterwards and the result. -/
def Decode (grow : Nat → Nat) (m : Mem UInt8) (segments : List Seg) (options : List CharsetOpt) : Mem UInt8 × M Bytes :=
  let (m, ps) := decodeLoop grow (Sms.decodeOpts options) segments none m
  (m, ps.map fun ps => (ps.map (·.read m)).flatten)

/-! ### Segment -/

/-- A TPDU with its header and user data in memory (the fields `pdu.UDH` and `pdu.UD` are not used). -/
structure Out where
  pdu : TPDU
  udh : Slice
  ud : Slice

/-- The TPDU as a value. -/
def Out.load (ies : Mem IE) (m : Mem UInt8) (o : Out) : TPDU := { o.pdu with UDH := ies.read o.udh, UD := m.read o.ud }

/-- Result of `Segment`. -/
structure Result where
  pdus : List Out
  cr : Option Counter
  mr : Option Counter

/-- The loop of `Segment`, tpdu.go:218-227; `pos` is the position of the first chunk given in the message. -/
def segLoop (grow : Nat → Nat) (t : TPDU) (u msg : Slice) (ief : Int → Int → Int → IE) (concatRef : Int) (count : Nat) :
    List Bytes → Nat → Nat → Option Counter → Mem IE → Mem IE × List Out × Option Counter
  | [], _, _, mr, ies => (ies, [], mr)
  | c :: cs, i, pos, mr, ies =>
    let (p, mr) := setMR t mr
    -- `append(t.UDH[:0:0], t.UDH...)`
    let (ies, v) := ies.append grow ⟨u.arr, u.off, 0, 0⟩ (ies.read u)
    let (ies, v) := ies.append grow v [ief concatRef count (i + 1)]
    let p := p.SetUDH (some (ies.read v))
    let (ies, ps, mr) := segLoop grow t u msg ief concatRef count cs (i + 1) (pos + c.length) mr ies
    (ies, ⟨p, v, ⟨msg.arr, msg.off + pos, c.length, msg.cap - pos⟩⟩ :: ps, mr)

/-- `TPDU.Segment`, tpdu.go:189-229, for a template with the header `udh`: the headers in memory afterwards and the
TPDUs.  The chunks are consecutive slices of the message (tpdu.go:1128-1205). -/
def Segment (grow : Nat → Nat) (ies : Mem IE) (m : Mem UInt8) (t : TPDU) (udh msg : Slice) (cfg : SegCfg) :
    Mem IE × M Result :=
  let content := m.read msg
  if content.length = 0 then (ies, .ok ⟨[], cfg.cr, cfg.mr⟩)
  else
    let t := { t with UDH := ies.read udh }
    if (content.length : Int) ≤ t.UDBlockSize then
      let (p, mr) := setMR t cfg.mr
      (ies, .ok ⟨[⟨p, udh, msg⟩], cfg.cr, mr⟩)
    else
      let (ies, u) := ies.append grow udh [cfg.ief 0 0 0]
      let t := t.SetUDH (some (ies.read u))
      let bs := t.UDBlockSize
      let u := { u with len := u.len - 1 }
      let t := { t with UDH := ies.read u }
      match chunk content t.Alphabet.1 bs with
      | .error f => (ies, .error f)
      | .ok chunks =>
        let (concatRef, cr) := match cfg.cr with
          | none => ((1 : Int), none)
          | some c => (c.count.1, some c.count.2)
        let (ies, pdus, mr) := segLoop grow t u msg cfg.ief concatRef chunks.length chunks 0 0 cfg.mr ies
        (ies, .ok ⟨pdus, cr, mr⟩)

/-! ### Charset options of concurrent calls -/

/-- The charset options of one call of `Encoder.Encode`: first they are appended one by one to the options of
the encoder, of which the call has a copy of the slice (encode.go:89-92, options.go:98-158), later they are read
(encode.go:100). -/
inductive OptStep where
  | apply (o : CharsetOpt)
  | use

/-- A call: its steps to come, the slice it has, and what it has read. -/
structure Call where
  todo : List OptStep
  eopts : Slice
  seen : Option (List CharsetOpt)

/-- The next step of a call. -/
def Call.step (grow : Nat → Nat) (m : Mem CharsetOpt) (c : Call) : Mem CharsetOpt × Call :=
  match c.todo with
  | [] => (m, c)
  | .apply o :: rest =>
    let (m, e) := m.append grow c.eopts [o]
    (m, { c with todo := rest, eopts := e })
  | .use :: rest => (m, { c with todo := rest, seen := some (m.read c.eopts) })

/-- A call of `Encode` with the given charset options on an encoder with options `eopts`. -/
def Call.new (eopts : Slice) (options : List CharsetOpt) : Call := ⟨options.map .apply ++ [.use], eopts, none⟩

/-- Calls running concurrently, according to a schedule of the numbers of the calls that take a step. -/
def runCalls (grow : Nat → Nat) : List Nat → Mem CharsetOpt → List Call → Mem CharsetOpt × List Call
  | [], m, cs => (m, cs)
  | i :: is, m, cs =>
    match cs[i]? with
    | none => runCalls grow is m cs
    | some c =>
      let (m, c) := c.step grow m
      runCalls grow is m (cs.set i c)

end Verif.Model.Alias
