import Verif.Spec.DcsMeaning
import Verif.Model.Sms
import Verif.Proofs.Basic

/-! C69: the data coding scheme means what the standard says. -/

namespace Verif.Props
open Verif.Model Verif.Spec Verif.Proofs

/-- C69: the alphabet of every data coding scheme is the standard's, also for reserved codings. -/
theorem C69_alphabet (d : UInt8) : (DCS.Alphabet d).1 = (coding d).alphabet := by
  revert d; apply forall_u8; decide +kernel

/-- C69: the class of every data coding scheme is the standard's; `MClassUnknown` stands for no class. -/
theorem C69_class (d : UInt8) : (DCS.Class d).1.toNat = ((coding d).cls.getD 4) := by
  revert d; apply forall_u8; decide +kernel

/-- C69: compression is reported for exactly the codings that say so. -/
theorem C69_compressed (d : UInt8) : DCS.Compressed d = (coding d).compressed := by
  revert d; apply forall_u8; decide +kernel

/-- C69 (partial, missing: reserved groups, and classes of general codings without one): the codings for
which `Alphabet` and `Class` return an error beside the value are exactly the reserved groups, and those
and the general codings without a class. -/
theorem C69_errors_partial (d : UInt8) :
    ((DCS.Alphabet d).2 = if reservedGroup d then some .invalid else none) ∧
    ((DCS.Class d).2 = if reservedGroup d ∨ (d < 0x80 ∧ (coding d).cls = none) then some .invalid else none) := by
  revert d; apply forall_u8; decide +kernel

/-- C69 is false as stated: the standard says that a receiver takes a reserved coding group as the GSM 7 bit
default alphabet, but an SMS-DELIVER with such a coding and any user data is rejected. -/
theorem C69_counterexample_reserved :
    (coding 0x80).alphabet = .a7Bit ∧
    ({ Direction := MT } : TPDU).UnmarshalBinary
      [0x04, 0x03, 0x91, 0x21, 0xf3, 0x00, 0x80, 0x51, 0x50, 0x71, 0x32, 0x20, 0x05, 0x23, 0x01, 0x41] =
      fail (.decode "SmsDeliver.ud.alphabet" 15 .invalid) ∧
    (({ Direction := MT } : TPDU).UnmarshalBinary
      [0x04, 0x03, 0x91, 0x21, 0xf3, 0x00, 0x00, 0x51, 0x50, 0x71, 0x32, 0x20, 0x05, 0x23, 0x01, 0x41]).map
        (fun t => Sms.Decode [t] []) = .ok (.ok [0x41]) := by decide +kernel

/-- C69 is false as stated: neither of the codings 0x00 and 0xc0 has a class, but `Class` calls one of them
invalid. -/
theorem C69_counterexample_class :
    (coding 0x00).cls = none ∧ (coding 0xc0).cls = none ∧
    DCS.Class 0x00 = (DCS.MClassUnknown, some .invalid) ∧ DCS.Class 0xc0 = (DCS.MClassUnknown, none) := by decide

/-- The compression bit has no effect on the alphabet. -/
theorem compressed_alphabet (d : UInt8) (h : d < 0x80) : DCS.Alphabet (d ||| 0x20) = DCS.Alphabet d := by
  revert d
  have h : ∀ d : UInt8, d ≥ 0x80 ∨ DCS.Alphabet (d ||| 0x20) = DCS.Alphabet d := by
    apply forall_u8; decide +kernel
  intro d hd
  rcases h d with h | h
  · have := UInt8.le_iff_toNat_le.mp h
    have := UInt8.lt_iff_toNat_lt.mp hd
    omega
  · exact h

/-- The loop of `Decode` sees only the alphabets, headers and user data of the segments. -/
theorem decodeLoop_congr (opts : List CharsetOpt) (f : TPDU → TPDU) (l : List TPDU)
    (h : ∀ t ∈ l, (f t).Alphabet = t.Alphabet ∧ (f t).UDH = t.UDH ∧ (f t).UD = t.UD) (dangling : Bytes) :
    Model.Sms.decodeLoop opts (l.map f) dangling = Model.Sms.decodeLoop opts l dangling := by
  induction l generalizing dangling with
  | nil => rfl
  | cons s ss ih =>
    obtain ⟨h1, h2, h3⟩ := h s (by simp)
    have ih := fun d => ih (fun t ht => h t (by simp [ht])) d
    simp only [List.map_cons, Model.Sms.decodeLoop, h1, h2, h3, ih]

/-- C69 is false as stated: `Decode` does not decompress. Setting the compression bit of segments of a
general coding changes nothing: compressed user data is read as if it were plain text. -/
theorem C69_compression_ignored (segments : List TPDU) (opts : List CharsetOpt) (h : ∀ t ∈ segments, t.DCS < 0x80) :
    Sms.Decode (segments.map fun t => { t with DCS := t.DCS ||| 0x20 }) opts = Sms.Decode segments opts ∧
    ∀ t ∈ segments, DCS.Compressed (t.DCS ||| 0x20) = true := by
  constructor
  · exact decodeLoop_congr _ (fun t => { t with DCS := t.DCS ||| 0x20 }) _ (fun t ht => ⟨compressed_alphabet _ (h t ht), rfl, rfl⟩) _
  · intro t ht
    have : ∀ d : UInt8, d ≥ 0x80 ∨ DCS.Compressed (d ||| 0x20) = true := by apply forall_u8; decide +kernel
    rcases this t.DCS with h' | h'
    · have := UInt8.le_iff_toNat_le.mp h'
      have := UInt8.lt_iff_toNat_lt.mp (h t ht)
      omega
    · exact h'

example : coding 0x1a = ⟨.ucs2, some 2, false⟩ ∧ coding 0x61 = ⟨.a7Bit, none, true⟩ ∧ coding 0xe8 = ⟨.ucs2, none, false⟩ ∧
    coding 0xf5 = ⟨.a8Bit, some 1, false⟩ ∧ reservedGroup 0xb3 = true ∧ reservedGroup 0xc0 = false := by decide

end Verif.Props
