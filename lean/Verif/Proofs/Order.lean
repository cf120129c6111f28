import Verif.Spec.Order
import Verif.Proofs.Offer

/-! Lemmas for C129. -/

namespace Verif.Proofs.Order
open Verif.Model Verif.Spec

/-- The tables considered are then the same. -/
theorem offered_same {o o' : List CharsetOpt} (h : SameOffer o o') (L : Lang) : L ∈ offered o ↔ L ∈ offered o' := by
  unfold offered choices
  simp only [List.mem_append, List.mem_map, List.mem_flatMap, List.mem_filter, h.1, h.2]

/-- So septets will do for the same texts. -/
theorem inSeptets_same {o o' : List CharsetOpt} (h : SameOffer o o') (text : List UInt8) :
    InSeptets o text ↔ InSeptets o' text := by
  unfold InSeptets
  simp only [offered_same h]

/-- An encoding takes at least a septet for each character. -/
theorem loop_length_ge (e : Gsm7.Encoder) : ∀ (us : List Nat) (g : Bytes), e.loop us = .ok g → us.length ≤ g.length
  | [], g, _ => by simp
  | u :: us, g, h => by
    unfold Gsm7.Encoder.loop at h
    split at h
    · obtain ⟨r, h1, h2⟩ := bind_eq_ok.1 h
      cases h2
      have := loop_length_ge e us r h1
      simp only [List.length_cons]; omega
    · split at h
      · obtain ⟨r, h1, h2⟩ := bind_eq_ok.1 h
        cases h2
        have := loop_length_ge e us r h1
        simp only [List.length_cons]; omega
      · cases h

end Verif.Proofs.Order
