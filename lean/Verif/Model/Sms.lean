import Verif.Model.Segment

/-! Model of sms.go, encode.go and options.go of the root package. -/

namespace Verif.Model

namespace Sms

/-- `DecodeOption`s of the package (options.go:119-121, :140-142, :161-163): all append one charset option.
`AllCharsetsOption` is not a `DecodeOption`, but an empty list means all charsets (sms.go:28-30). -/
def decodeOpts (options : List CharsetOpt) : List CharsetOpt :=
  if options.length = 0 then [.all] else options

/-- The loop of `Decode`, sms.go:34-52 and the check of :53-55; `dangling` is `danglingSurrogate`
(`[]` for nil: the error always carries at least two bytes).  The texts are concatenated on the way out. -/
def decodeLoop (opts : List CharsetOpt) : List TPDU → Bytes → M Bytes
  | [], dangling => if dangling ≠ [] then fail (.ucs2Dangling dangling) else .ok []
  | s :: ss, dangling =>
    let a := s.Alphabet.1
    let ud := if dangling ≠ [] then dangling ++ s.UD else s.UD
    let d := DecodeUserData ud s.UDH a opts
    match d.err with
    | none => do
      let rest ← decodeLoop opts ss []
      return d.text ++ rest
    | some (.ucs2Dangling e) => do
      let rest ← decodeLoop opts ss e
      return d.text ++ rest
    | some e => fail e

/-- `Decode`, sms.go:23-61. -/
def Decode (segments : List TPDU) (options : List CharsetOpt) : M Bytes :=
  decodeLoop (decodeOpts options) segments []

/-- The loop of `IsCompleteMessage`, sms.go:76-90. -/
def completeLoop (baseSegs baseRef : Nat) : List TPDU → Nat → Bool
  | [], _ => true
  | s :: ss, i =>
    match s.ConcatInfo with
    | none => false
    | some c =>
      if c.segments ≠ baseSegs then false
      else if c.mref ≠ baseRef then false
      else if c.seqno ≠ i + 1 then false
      else completeLoop baseSegs baseRef ss (i + 1)

/-- `IsCompleteMessage`, sms.go:65-92. -/
def IsCompleteMessage (segments : List TPDU) : Bool :=
  match segments with
  | [] => false
  | s :: _ =>
    match s.ConcatInfo with
    | none => segments.length = 1
    | some base =>
      if base.segments ≠ segments.length then false
      else completeLoop base.segments base.mref segments 0

/-- `Unmarshal`, sms.go:100-111; `dirn` is the direction selected by the options (`AsMO`/`AsMT`, last one
wins, default MT; options.go:165-171). -/
def Unmarshal (src : Bytes) (dirn : Int) : M TPDU :=
  ({ Direction := dirn } : TPDU).UnmarshalBinary src

/-- The `EncoderOption`s provided by the package, options.go:25-158. -/
inductive EncoderOption where
  | template (t : TPDU)
  | templateOption (o : TpduOption)
  | charsets (o : CharsetOpt)

/-- `AsSubmit`, `AsDeliver`, `As8Bit`, `AsUCS2`, options.go:53-62. -/
def AsSubmit : EncoderOption := .templateOption (.smsType 3)
@[inherit_doc AsSubmit] def AsDeliver : EncoderOption := .templateOption (.smsType 0)
@[inherit_doc AsSubmit] def As8Bit : EncoderOption := .templateOption (.dcs DCS.Dcs8BitData)
@[inherit_doc AsSubmit] def AsUCS2 : EncoderOption := .templateOption (.dcs DCS.DcsUCS2Data)

/-- `To`, `From`, options.go:84-93. -/
def To (number : Bytes) : EncoderOption := .templateOption (.da (Address.NewFromNumber number))
@[inherit_doc To] def From (number : Bytes) : EncoderOption :=
  .templateOption (.oa (Address.NewFromNumber number))

/-- `Encoder`, encode.go:39-54.  `sopts` cannot be set by any option or caller outside the package, so it is
always empty and omitted.  The counters are pointers: they are threaded explicitly. -/
structure Encoder where
  eopts : List CharsetOpt := []
  pdu : TPDU := {}
  MsgCount : Counter
  ConcatRef : Counter

/-- `sms.Counter` with value `c`, encode.go:119-126: `Count` returns `c+1`, `c+2`, ... (int64 overflow is not
modelled). -/
def newCounter : Counter := { vals := fun k => (k : Int) + 1, pos := 0 }

/-- `ApplyEncoderOption`, options.go:33-35, :41-43 (the error of `ApplyTPDUOption` is ignored, and the
TPDU is unchanged when there is one), :99-101, :114-116, :135-137, :156-158. -/
def Encoder.apply (e : Encoder) : EncoderOption → Encoder
  | .template t => { e with pdu := t }
  | .templateOption o => match o.apply e.pdu with
    | .ok t => { e with pdu := t }
    | .error _ => e
  | .charsets o => { e with eopts := e.eopts ++ [o] }

/-- `NewEncoder`, encode.go:57-69. -/
def NewEncoder (options : List EncoderOption) : Encoder :=
  options.foldl Encoder.apply { MsgCount := newCounter, ConcatRef := newCounter }

/-- Result of `Encoder.Encode`: the TPDUs and the counters afterwards. -/
structure EncResult where
  pdus : List TPDU
  MsgCount : Counter
  ConcatRef : Counter

/-- `e.pdu.Segment(d, sopts...)` with the encoder's counters, encode.go:93, :98, :112. -/
def Encoder.segment (e : Encoder) (pdu : TPDU) (d : Bytes) : M EncResult := do
  let r ← pdu.Segment d { cr := some e.ConcatRef, mr := some e.MsgCount }
  return ⟨r.pdus, r.mr.getD e.MsgCount, r.cr.getD e.ConcatRef⟩

/-- `Encoder.Encode`, encode.go:89-114.  The receiver is a copy; only the counters are shared. -/
def Encoder.Encode (e : Encoder) (msg : Bytes) (options : List EncoderOption) : M EncResult :=
  let e := options.foldl Encoder.apply e
  let alpha := (DCS.Alphabet e.pdu.DCS).1
  if alpha = .a8Bit ∨ alpha = .ucs2 then e.segment e.pdu msg
  else
    let (d, udh, alpha) := EncodeUserData msg e.eopts
    match DCS.WithAlphabet e.pdu.DCS alpha with
    | .error (.panic k) => panicM k
    | .error (.err _) => fail .dcsConflict
    | .ok dcs =>
      let pdu := if dcs ≠ e.pdu.DCS then e.pdu.SetDCS dcs else e.pdu
      let pdu := if udh ≠ [] then pdu.SetUDH (some udh) else pdu
      e.segment pdu d

/-- `Encode`, encode.go:31-35. -/
def Encode (msg : Bytes) (options : List EncoderOption) : M (List TPDU) := do
  let r ← (NewEncoder (AsSubmit :: options)).Encode msg []
  return r.pdus

end Sms
end Verif.Model
