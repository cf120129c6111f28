import Verif.Model.Cmd
import Verif.Model.Counter

/-!
The test tables of /repo, evaluated in the model.  Generated by tools/gen_vectors.py; do not edit.  These are
tests of the model's faithfulness: no claim of the manifest rests on them.
-/

namespace Verif.Vectors
open Verif.Model

/-- What `Collect` returned, for each call. -/
def returned (l : List Collector.Event) : Option (List (List (Option TPDU) × Option Err)) :=
  match Collector.run (Collector.New true true) l with
  | .ok (_, os) => some (os.filterMap fun o => match o with
    | .returned d e => some (d.map (·.map (·.pdu)), e)
    | _ => none)
  | .error _ => none

/-! collect_test.go, TestCollectorCollect. -/

example : returned [
  .collect { OA := { TOA := 145, Addr := [49,50,51,52] } },
  .collect { OA := { TOA := 145, Addr := [49,50,51,52] }, UDH := [⟨0, [1,1,1]⟩] },
  .collect { OA := { TOA := 145, Addr := [49,50,51,52] }, UDH := [⟨0, [2,2,1]⟩] },
  .collect { OA := { TOA := 145, Addr := [49,50,51,52] }, UDH := [⟨0, [2,2,2]⟩] },
  .collect { OA := { TOA := 145, Addr := [49,50,51,52] }, UDH := [⟨0, [3,3,1]⟩] },
  .collect { OA := { TOA := 145, Addr := [49,50,51,52] }, UDH := [⟨0, [3,3,2]⟩] },
  .collect { OA := { TOA := 145, Addr := [49,50,51,52] }, UDH := [⟨0, [3,3,3]⟩] },
  .collect { OA := { TOA := 145, Addr := [49,50,51,52] }, UDH := [⟨0, [4,3,1]⟩] },
  .collect { OA := { TOA := 145, Addr := [49,50,51,52] }, UDH := [⟨0, [4,3,3]⟩] },
  .collect { OA := { TOA := 145, Addr := [49,50,51,52] }, UDH := [⟨0, [4,3,3]⟩] },
  .collect { OA := { TOA := 145, Addr := [49,50,51,52] }, UDH := [⟨0, [4,3,2]⟩] },
  .collect { OA := { TOA := 145, Addr := [49,50,51,52] }, UDH := [⟨0, [5,2,1]⟩] },
  .collect { OA := { TOA := 145, Addr := [49,50,51,52] }, UDH := [⟨0, [6,2,1]⟩] },
  .collect { OA := { TOA := 145, Addr := [49,50,51,52] }, UDH := [⟨0, [5,2,2]⟩] },
  .collect { OA := { TOA := 145, Addr := [49,50,51,52] }, UDH := [⟨0, [6,2,2]⟩] },
  .collect { OA := { TOA := 145, Addr := [49,50,51,52] }, UDH := [⟨8, [4,4,2,1]⟩] },
  .collect { OA := { TOA := 145, Addr := [49,50,51,52] }, UDH := [⟨8, [4,4,2,2]⟩] },
  .collect { Direction := (1), FirstOctet := 1, DA := { TOA := 145, Addr := [49,50,51,52] }, UDH := [⟨0, [2,2,1]⟩] },
  .collect { Direction := (1), FirstOctet := 1, DA := { TOA := 145, Addr := [49,50,51,52] }, UDH := [⟨0, [2,2,2]⟩] },
  .collect { OA := { TOA := 145, Addr := [49,50,51,52] }, UDH := [⟨0, [7,2,0]⟩] },
  .collect { OA := { TOA := 145, Addr := [49,50,51,52] }, UDH := [⟨0, [8,2,3]⟩] },
  .collect { Direction := (1), UDH := [⟨0, [8,2,1]⟩] },
  .close,
  .collect { OA := { TOA := 145, Addr := [49,50,51,52] } },
  .collect { OA := { TOA := 145, Addr := [49,50,51,52] }, UDH := [⟨0, [4,3,1]⟩] }] = some [
  ([some { OA := { TOA := 145, Addr := [49,50,51,52] } }], none),
  ([some { OA := { TOA := 145, Addr := [49,50,51,52] }, UDH := [⟨0, [1,1,1]⟩] }], none),
  ([], none),
  ([some { OA := { TOA := 145, Addr := [49,50,51,52] }, UDH := [⟨0, [2,2,1]⟩] }, some { OA := { TOA := 145, Addr := [49,50,51,52] }, UDH := [⟨0, [2,2,2]⟩] }], none),
  ([], none),
  ([], none),
  ([some { OA := { TOA := 145, Addr := [49,50,51,52] }, UDH := [⟨0, [3,3,1]⟩] }, some { OA := { TOA := 145, Addr := [49,50,51,52] }, UDH := [⟨0, [3,3,2]⟩] }, some { OA := { TOA := 145, Addr := [49,50,51,52] }, UDH := [⟨0, [3,3,3]⟩] }], none),
  ([], none),
  ([], none),
  ([], some .duplicateSegment),
  ([some { OA := { TOA := 145, Addr := [49,50,51,52] }, UDH := [⟨0, [4,3,1]⟩] }, some { OA := { TOA := 145, Addr := [49,50,51,52] }, UDH := [⟨0, [4,3,2]⟩] }, some { OA := { TOA := 145, Addr := [49,50,51,52] }, UDH := [⟨0, [4,3,3]⟩] }], none),
  ([], none),
  ([], none),
  ([some { OA := { TOA := 145, Addr := [49,50,51,52] }, UDH := [⟨0, [5,2,1]⟩] }, some { OA := { TOA := 145, Addr := [49,50,51,52] }, UDH := [⟨0, [5,2,2]⟩] }], none),
  ([some { OA := { TOA := 145, Addr := [49,50,51,52] }, UDH := [⟨0, [6,2,1]⟩] }, some { OA := { TOA := 145, Addr := [49,50,51,52] }, UDH := [⟨0, [6,2,2]⟩] }], none),
  ([], none),
  ([some { OA := { TOA := 145, Addr := [49,50,51,52] }, UDH := [⟨8, [4,4,2,1]⟩] }, some { OA := { TOA := 145, Addr := [49,50,51,52] }, UDH := [⟨8, [4,4,2,2]⟩] }], none),
  ([], none),
  ([some { Direction := (1), FirstOctet := 1, DA := { TOA := 145, Addr := [49,50,51,52] }, UDH := [⟨0, [2,2,1]⟩] }, some { Direction := (1), FirstOctet := 1, DA := { TOA := 145, Addr := [49,50,51,52] }, UDH := [⟨0, [2,2,2]⟩] }], none),
  ([], some .reassemblyInconsistency),
  ([], some .reassemblyInconsistency),
  ([], some (.unsupportedSmsType 1)),
  ([], some .closed),
  ([], some .closed)] := by decide +kernel

/-- The segments held, by key. -/
def held (l : List Collector.Event) : Option (List (Bytes × List (Option TPDU))) :=
  match Collector.run (Collector.New false false) l with
  | .ok (s, _) => some ((Collector.Pipes s).map fun kp => (kp.1, (Collector.deref s kp.2).map (·.map (·.pdu))))
  | .error _ => none

/-! collect_test.go, TestCollectorPipes.  A Go map is compared: the order of the keys is immaterial. -/

example : ∃ h, held [.collect { OA := { TOA := 145, Addr := [49,50,51,52] }, UDH := [⟨0, [1,2,1]⟩] }] = some h ∧ h.length = 1 ∧ ∀ x ∈ ([([48,58,57,49,58,49,50,51,52,58,49,58,50], [some { OA := { TOA := 145, Addr := [49,50,51,52] }, UDH := [⟨0, [1,2,1]⟩] }, none])] : List (Bytes × List (Option TPDU))), x ∈ h :=
  ⟨_, rfl, by decide +kernel⟩
example : ∃ h, held [.collect { OA := { TOA := 145, Addr := [49,50,51,52] }, UDH := [⟨0, [1,2,1]⟩] }, .collect { OA := { TOA := 145, Addr := [49,50,51,52] }, UDH := [⟨0, [2,2,2]⟩] }] = some h ∧ h.length = 2 ∧ ∀ x ∈ ([([48,58,57,49,58,49,50,51,52,58,49,58,50], [some { OA := { TOA := 145, Addr := [49,50,51,52] }, UDH := [⟨0, [1,2,1]⟩] }, none]), ([48,58,57,49,58,49,50,51,52,58,50,58,50], [none, some { OA := { TOA := 145, Addr := [49,50,51,52] }, UDH := [⟨0, [2,2,2]⟩] }])] : List (Bytes × List (Option TPDU))), x ∈ h :=
  ⟨_, rfl, by decide +kernel⟩
example : ∃ h, held [.collect { OA := { TOA := 145, Addr := [49,50,51,52] }, UDH := [⟨0, [1,2,1]⟩] }, .collect { OA := { TOA := 145, Addr := [49,50,51,52] }, UDH := [⟨0, [2,2,2]⟩] }, .collect { OA := { TOA := 145, Addr := [49,50,51,52] }, UDH := [⟨0, [1,2,2]⟩] }] = some h ∧ h.length = 1 ∧ ∀ x ∈ ([([48,58,57,49,58,49,50,51,52,58,50,58,50], [none, some { OA := { TOA := 145, Addr := [49,50,51,52] }, UDH := [⟨0, [2,2,2]⟩] }])] : List (Bytes × List (Option TPDU))), x ∈ h :=
  ⟨_, rfl, by decide +kernel⟩

end Verif.Vectors
