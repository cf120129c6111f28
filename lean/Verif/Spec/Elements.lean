import Verif.Model.UserData

/-! Information elements as octets (TS 23.040 9.2.3.24). -/

namespace Verif.Spec
open Verif.Model

/-- `Elements s udh`: the octets are the elements, one after the other, each its identifier, the length of its data,
and its data. -/
inductive Elements : List UInt8 → UDH → Prop
  | nil : Elements [] []
  | cons {id len : UInt8} {data s : List UInt8} {udh : UDH} : data.length = len.toNat → Elements s udh →
      Elements (id :: len :: (data ++ s)) (⟨id, data⟩ :: udh)

end Verif.Spec
