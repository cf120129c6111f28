import Verif.Model.Tpdu

/-! Model of the segmentation code of encoding/tpdu/tpdu.go (`Segment`, `chunk*`, `newInfoElement*`). -/

namespace Verif.Model

/-- `tpdu.Counter`, tpdu.go:164-166: an arbitrary stream of values and the number of calls made so far. -/
structure Counter where
  vals : Nat → Int
  pos : Nat

/-- `Counter.Count()`. -/
def Counter.count (c : Counter) : Int × Counter := (c.vals c.pos, { c with pos := c.pos + 1 })

/-- `newInfoElement`, tpdu.go:1093-1098. -/
def newInfoElement (msgCount segCount segment : Int) : IE :=
  ⟨0, [byteOf msgCount, byteOf segCount, byteOf segment]⟩

/-- `newInfoElement16bit`, tpdu.go:1100-1106. -/
def newInfoElement16bit (msgCount segCount segment : Int) : IE :=
  ⟨8, Ucs2.putBE16 (msgCount % 65536).toNat ++ [byteOf segCount, byteOf segment]⟩

/-- `segmentationConfig`, tpdu.go:168-177.  `wide` selects `newInfoElement16bit`
(`With16BitConcatRef`, tpdu.go:235-237); the two are the only values `ief` can take. -/
structure SegCfg where
  wide : Bool := false
  cr : Option Counter := none
  mr : Option Counter := none

/-- `cfg.ief`. -/
def SegCfg.ief (c : SegCfg) : Int → Int → Int → IE :=
  if c.wide then newInfoElement16bit else newInfoElement

/-- tpdu.go:1108-1110. -/
def esc : UInt8 := 0x1b

/-- The checks made by `count := 1 + len(msg)/bs; make([][]byte, 0, count)`, e.g. tpdu.go:1132-1133. -/
def checkCount (msg : Bytes) (bs : Int) : M Unit :=
  if bs = 0 then panicM .divide
  else if 1 + (msg.length : Int).tdiv bs < 0 then panicM .makeslice
  else .ok ()

/-- The loop of `chunk7Bit`, tpdu.go:1136-1146.  `bstart` determines the loop state; an iteration that does
not advance it repeats forever.  Every other iteration advances it, so `fuel > len(msg) - bstart`
suffices (`Proofs.Segment`). -/
def chunk7Loop (msg : Bytes) (bs : Int) : Nat → Int → M (List Bytes)
  | 0, _ => panicM .diverge
  | fuel + 1, bstart =>
    let bend := bstart + bs
    if bend < msg.length then do
      let e1 ← idx msg (bend - 1)
      let bend ← (
        if e1 = esc then do
          let e2 ← idx msg (bend - 2)
          return (if e2 ≠ esc then bend - 1 else bend)
        else .ok bend : M Int)
      let c ← slice msg bstart bend
      if bend = bstart then panicM .diverge
      else do
        let cs ← chunk7Loop msg bs fuel bend
        return c :: cs
    else do
      let c ← slice msg bstart msg.length
      return [c]

/-- `chunk7Bit`, tpdu.go:1128-1147. -/
def chunk7Bit (msg : Bytes) (bs : Int) : M (List Bytes) :=
  if msg.length = 0 then .ok []
  else do
    checkCount msg bs
    chunk7Loop msg bs (msg.length + 1) 0

/-- The loop of `chunk8Bit`, tpdu.go:1159-1164 (see `chunk7Loop` for `fuel`). -/
def chunk8Loop (msg : Bytes) (bs : Int) : Nat → Int → M (List Bytes)
  | 0, _ => panicM .diverge
  | fuel + 1, bstart =>
    let bend := bstart + bs
    if bend < msg.length then do
      let c ← slice msg bstart bend
      if bend = bstart then panicM .diverge
      else do
        let cs ← chunk8Loop msg bs fuel bend
        return c :: cs
    else do
      let c ← slice msg bstart msg.length
      return [c]

/-- `chunk8Bit`, tpdu.go:1151-1166. -/
def chunk8Bit (msg : Bytes) (bs : Int) : M (List Bytes) :=
  if msg.length = 0 then .ok []
  else do
    checkCount msg bs
    chunk8Loop msg bs (msg.length + 1) 0

/-- `binary.BigEndian.Uint16(s)`: panics when fewer than two bytes are given. -/
def uint16 (s : Bytes) : M Nat :=
  match s with
  | h :: l :: _ => .ok (Ucs2.be16 h l)
  | _ => panicM .index

/-- The loop of `chunkUCS2`, tpdu.go:1193-1203 (see `chunk7Loop` for `fuel`). -/
def chunkUCS2Loop (msg : Bytes) (bs : Int) : Nat → Int → M (List Bytes)
  | 0, _ => panicM .diverge
  | fuel + 1, bstart =>
    let bend := bstart + bs
    if bend < msg.length then do
      let r ← uint16 (← slice msg (bend - 2) bend)
      let bend := if 0xd800 ≤ r ∧ r < 0xdc00 then bend - 2 else bend
      let c ← slice msg bstart bend
      if bend = bstart then panicM .diverge
      else do
        let cs ← chunkUCS2Loop msg bs fuel bend
        return c :: cs
    else do
      let c ← slice msg bstart msg.length
      return [c]

/-- `chunkUCS2`, tpdu.go:1182-1205. -/
def chunkUCS2 (msg : Bytes) (bs : Int) : M (List Bytes) :=
  if msg.length = 0 then .ok []
  else do
    let bs := bs - bs % 2
    checkCount msg bs
    chunkUCS2Loop msg bs (msg.length + 1) 0

/-- `chunk`, tpdu.go:1113-1122. -/
def chunk (msg : Bytes) (alpha : Alphabet) (bs : Int) : M (List Bytes) :=
  match alpha with
  | .ucs2 => chunkUCS2 msg bs
  | .a8Bit => chunk8Bit msg bs
  | _ => chunk7Bit msg bs

/-- `t.MR = byte(cfg.mr.Count())` when a counter is configured. -/
def setMR (t : TPDU) (mr : Option Counter) : TPDU × Option Counter :=
  match mr with
  | none => (t, none)
  | some c => ({ t with MR := byteOf c.count.1 }, some c.count.2)

/-- The loop of `Segment`, tpdu.go:218-227; `i` is the zero based index of the first chunk given. -/
def segLoop (t : TPDU) (ief : Int → Int → Int → IE) (concatRef : Int) (count : Nat) :
    List Bytes → Nat → Option Counter → List TPDU × Option Counter
  | [], _, mr => ([], mr)
  | c :: cs, i, mr =>
    let (p, mr) := setMR t mr
    let p := p.SetUDH (some (t.UDH ++ [ief concatRef count (i + 1)]))
    let p := { p with UD := c }
    let (ps, mr) := segLoop t ief concatRef count cs (i + 1) mr
    (p :: ps, mr)

/-- Result of `Segment`, with the counters after the call. -/
structure SegResult where
  pdus : List TPDU
  cr : Option Counter
  mr : Option Counter

/-- `TPDU.Segment`, tpdu.go:189-229.  The receiver is a copy, so the template does not change (aliasing of
the UDH backing array is treated in `Model/Alias.lean`). -/
def TPDU.Segment (t : TPDU) (msg : Bytes) (cfg : SegCfg) : M SegResult :=
  if msg.length = 0 then .ok ⟨[], cfg.cr, cfg.mr⟩
  else
    let bs := t.UDBlockSize
    if (msg.length : Int) ≤ bs then
      let t := { t with UD := msg }
      let (t, mr) := setMR t cfg.mr
      .ok ⟨[t], cfg.cr, mr⟩
    else do
      let udh := t.UDH
      let t := t.SetUDH (some (t.UDH ++ [cfg.ief 0 0 0]))
      let bs := t.UDBlockSize
      let t := { t with UDH := udh }
      let chunks ← chunk msg t.Alphabet.1 bs
      let (concatRef, cr) := match cfg.cr with
        | none => ((1 : Int), none)
        | some c => (c.count.1, some c.count.2)
      let (pdus, mr) := segLoop t cfg.ief concatRef chunks.length chunks 0 cfg.mr
      return ⟨pdus, cr, mr⟩

end Verif.Model
