import Verif.Proofs.Failures
import Verif.Proofs.Tpdu

/-! An input for each failure. -/

namespace Verif.Proofs
open Verif.Model Verif.Spec

/-- The failures that carry an octet are treated apart. -/
def plainErr : Cause → Option Err
  | .short => some .underflow
  | .long => some .overlength
  | .unknown => some .invalid
  | .nonZero => some .nonZero
  | .odd => some .oddUCS2Length
  | .fill => some .semiMissingFill
  | _ => none

def zeros (n : Nat) : Bytes := List.replicate n 0

/-- User data that fail, after a prefix that depends on the data coding. -/
def udCases (coded udhi : Bool) (pre : UInt8 → Bytes) : List (String × Cause × Bytes) :=
  [("ud.udl", .short, pre 4), ("ud.sm", .short, pre 4 ++ [3, 0]), ("ud.ud", .long, pre 4 ++ [1, 0, 0])] ++
  (if coded then [("ud.alphabet", .unknown, pre 0x80 ++ [1, 0]), ("ud.sm", .long, pre 0 ++ [7, 0, 0, 0, 0, 0, 0, 2]),
    ("ud.sm", .odd, pre 8 ++ (if udhi then [2, 0, 0] else [1, 0]))] else []) ++
  (if udhi then [("ud.udh.ie", .short, pre 4 ++ [1, 5]), ("ud.udh.ied", .short, pre 4 ++ [3, 2, 0, 9])] else [])

def vpZero (vpf : Nat) : Bytes := if vpf = 0 then [] else if vpf = 2 then [0] else zeros 7

def vpCases (vpf : Nat) (pre : Bytes) : List (String × Cause × Bytes) :=
  if vpf = 0 then []
  else [("vp", .short, pre)] ++
    (if vpf = 1 then [("vp.enhanced", .unknown, pre ++ [7] ++ zeros 6), ("vp.enhanced", .nonZero, pre ++ [0, 1] ++ zeros 5)] else [])

def failCases (name : String) (udhi : Bool) (vpf : Nat) : List (String × Cause × Bytes) :=
  if name = "SmsDeliver" then
    [("oa.addr", .short, []), ("oa.addr", .fill, [1, 0x81, 0x21]), ("pid", .short, [0, 0]), ("dcs", .short, [0, 0, 0]),
      ("scts", .short, [0, 0, 0, 0])] ++ udCases true udhi fun d => [0, 0, 0, d] ++ zeros 7
  else if name = "SmsDeliverReport" then
    [("fcs", .short, []), ("pi", .short, [0]), ("pid", .short, [0, 7]), ("dcs", .short, [0, 7, 0])] ++
      udCases true udhi fun d => [0, 7, 0, d]
  else if name = "SmsSubmit" then
    [("mr", .short, []), ("da.addr", .short, [0]), ("da.addr", .fill, [0, 1, 0x81, 0x21]), ("pid", .short, [0, 0, 0]),
      ("dcs", .short, [0, 0, 0, 0])] ++ vpCases vpf [0, 0, 0, 0, 0] ++ udCases true udhi fun d => [0, 0, 0, 0, d] ++ vpZero vpf
  else if name = "SmsSubmitReport" then
    [("fcs", .short, []), ("pi", .short, [0]), ("scts", .short, [0, 7]), ("pid", .short, [0, 7] ++ zeros 7),
      ("dcs", .short, [0, 7] ++ zeros 8)] ++ udCases true udhi fun d => [0, 7] ++ zeros 8 ++ [d]
  else if name = "SmsStatusReport" then
    [("mr", .short, []), ("ra.addr", .short, [0]), ("ra.addr", .fill, [0, 1, 0x81, 0x21]), ("scts", .short, [0, 0, 0]),
      ("dt", .short, zeros 10), ("st", .short, zeros 17), ("pid", .short, zeros 18 ++ [7]), ("dcs", .short, zeros 18 ++ [7, 0])] ++
      udCases true udhi fun d => zeros 18 ++ [7, 0, d]
  else if name = "SmsCommand" then
    [("mr", .short, []), ("pid", .short, [0]), ("ct", .short, [0, 0]), ("mn", .short, [0, 0, 0]), ("da.addr", .short, zeros 4),
      ("da.addr", .fill, zeros 4 ++ [1, 0x81, 0x21])] ++ udCases false udhi fun _ => zeros 6
  else []

/-- The result is an error of the field and cause. -/
def hasErr (f : String) (c : Err) : M TPDU → Bool
  | .error (.err (.decode f' _ c')) => f' = f ∧ c' = c
  | _ => false

theorem hasErr_iff (f : String) (c : Err) (m : M TPDU) : hasErr f c m = true ↔ ∃ o, m = .error (.err (.decode f o c)) := by
  constructor
  · intro h
    unfold hasErr at h
    split at h
    · simp only [decide_eq_true_eq] at h
      exact ⟨_, by rw [h.1, h.2]⟩
    · cases h
  · rintro ⟨o, rfl⟩
    simp [hasErr]

def sixNames : List String := ["SmsDeliver", "SmsDeliverReport", "SmsSubmit", "SmsSubmitReport", "SmsStatusReport", "SmsCommand"]

/-- Each failure without an octet has its case. -/
theorem cases_complete : ∀ name ∈ sixNames, ∀ udhi, ∀ v < 4, ∀ p ∈ failures name udhi v, (plainErr p.2).isSome →
    ∃ w ∈ failCases name udhi v, w.1 = p.1 ∧ w.2.1 = p.2 := by
  intro name hn udhi
  cases udhi <;> revert name <;> decide +kernel

end Verif.Proofs
