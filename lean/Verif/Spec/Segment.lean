import Verif.Model.Segment
import Verif.Spec.Chars

/-! Vocabulary for statements about segmentation. -/

namespace Verif.Spec
open Verif.Model

/-- The template with a concatenation element added: its block size is that of a segment. -/
def segTemplate (t : TPDU) (cfg : SegCfg) : TPDU := { t with UDH := t.UDH ++ [cfg.ief 0 0 0] }

/-- The smallest block size with which every message can be cut between characters: a character takes up to
two septets, one octet, or two 16-bit units. -/
def minBlock : Alphabet → Nat
  | .ucs2 => 4
  | .a8Bit => 1
  | _ => 2

/-- The template leaves room for content in each segment. -/
def Room (t : TPDU) (cfg : SegCfg) : Prop := (minBlock t.Alphabet.1 : Int) ≤ (segTemplate t cfg).UDBlockSize

instance (t : TPDU) (cfg : SegCfg) : Decidable (Room t cfg) := by unfold Room; infer_instance

/-- The content of a sequence of TPDUs. -/
def content (ps : List TPDU) : List UInt8 := (ps.map (·.UD)).flatten

end Verif.Spec
