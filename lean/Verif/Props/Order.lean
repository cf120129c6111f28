import Verif.Proofs.Order
import Verif.Props.Offer

/-! C129: the order in which national language tables are offered does not matter. -/

namespace Verif.Props
open Verif.Model Verif.Spec Verif.Proofs Verif.Proofs.Order

/-- C129: options that offer the same tables give the same alphabet. -/
theorem C129_alphabet (text : List UInt8) (o o' : List CharsetOpt) (h : SameOffer o o') :
    (EncodeUserData text o).2.2 = (EncodeUserData text o').2.2 := by
  rcases C40_alphabet text o with ⟨h1, h2⟩ | ⟨h1, h2⟩ <;> rcases C40_alphabet text o' with ⟨g1, g2⟩ | ⟨g1, g2⟩
  · rw [h1, g1]
  · exact absurd ((inSeptets_same h text).1 h2) g2
  · exact absurd ((inSeptets_same h text).2 g2) h2
  · rw [h1, g1]

/-- C129: they give the same text to a decoder that permits the languages offered. -/
theorem C129_decodes (text : List UInt8) (o o' dopts : List CharsetOpt) (h : SameOffer o o')
    (hm : ∀ n : Int, 1 ≤ n → n ≤ 13 → (n ∈ offeredLocking o → ∃ d ∈ dopts, n ∈ offersLocking d) ∧
      (n ∈ offeredShift o → ∃ d ∈ dopts, n ∈ offersShift d))
    (hesc : InSeptets o text → 0x1b ∉ text)
    (hutf : ∃ rs, (∀ r ∈ rs, Scalar r) ∧ text = Unicode.encodeRunes rs) :
    DecodeUserData (EncodeUserData text o).1 (EncodeUserData text o).2.1 (EncodeUserData text o).2.2 dopts =
      ⟨text, none⟩ ∧
    DecodeUserData (EncodeUserData text o').1 (EncodeUserData text o').2.1 (EncodeUserData text o').2.2 dopts =
      ⟨text, none⟩ :=
  ⟨C40_decodes text o dopts hm hesc hutf,
   C40_decodes text o' dopts (by simpa only [h.1, h.2] using hm) (fun hs => hesc ((inSeptets_same h text).2 hs)) hutf⟩

/-- C129, the octets and the header: they are the same as well when the default alphabet will do, and when no
more than one of the choices of tables offered will do.  Missing: when several would do, where the first is used
(`C40_language`), and the order matters (`C129_counterexample`). -/
theorem C129_same_partial (text : List UInt8) (o o' : List CharsetOpt) (h : SameOffer o o')
    (hu : Representable .default text ∨
      ∀ L ∈ offered o, ∀ M ∈ offered o, Representable L text → Representable M text → L = M) :
    EncodeUserData text o = EncodeUserData text o' := by
  by_cases hd : Representable .default text
  · obtain ⟨d, x1, x2⟩ := C40_default text o hd
    obtain ⟨d', y1, y2⟩ := C40_default text o' hd
    rw [x2] at y2; cases y2
    rw [x1, y1]
  · by_cases hs : InSeptets o text
    · have hu := hu.resolve_left hd
      obtain ⟨pre, L, post, e, h1, h2⟩ := find_first (offered o) (fun L => Representable L text) (hs.resolve_left hd)
      obtain ⟨pre', L', post', e', h1', h2'⟩ := find_first (offered o') (fun L => Representable L text)
        (((inSeptets_same h text).1 hs).resolve_left hd)
      obtain ⟨⟨d, x1, x2⟩, _⟩ := C40_language text o hd pre post L e h1 h2
      obtain ⟨⟨d', y1, y2⟩, _⟩ := C40_language text o' hd pre' post' L' e' h1' h2'
      have := hu L (by rw [e]; simp) L' ((offered_same h L').2 (by rw [e']; simp)) h2 h2'
      subst this
      rw [x2] at y2; cases y2
      rw [x1, y1]
    · rw [C40_fallback text o hs, C40_fallback text o' (fun hh => hs ((inSeptets_same h text).2 hh))]

/-- C129, the length: one order never takes more than twice the octets (of unpacked septets) of another. -/
theorem C129_length (text : List UInt8) (o o' : List CharsetOpt) (h : SameOffer o o') :
    (EncodeUserData text o).1.length ≤ 2 * (EncodeUserData text o').1.length := by
  by_cases hs : InSeptets o text
  · have key : ∀ o, InSeptets o text → (Unicode.decodeRunes text).length ≤ (EncodeUserData text o).1.length ∧
        (EncodeUserData text o).1.length ≤ 2 * (Unicode.decodeRunes text).length := by
      intro o hs
      by_cases hd : Representable .default text
      · obtain ⟨d, x1, x2⟩ := C40_default text o hd
        rw [x1]
        have := (encoder_encode_eq _ text).symm.trans x2
        exact ⟨loop_length_ge _ _ _ this, Offer.loop_length _ _ _ this⟩
      · obtain ⟨pre, L, post, e, h1, h2⟩ := find_first (offered o) (fun L => Representable L text) (hs.resolve_left hd)
        obtain ⟨⟨d, x1, x2⟩, _⟩ := C40_language text o hd pre post L e h1 h2
        rw [x1]
        have := (encoder_encode_eq _ text).symm.trans x2
        exact ⟨loop_length_ge _ _ _ this, Offer.loop_length _ _ _ this⟩
    have := (key o hs).2
    have := (key o' ((inSeptets_same h text).1 hs)).1
    omega
  · rw [C40_fallback text o hs, C40_fallback text o' (fun hh => hs ((inSeptets_same h text).2 hh))]
    omega

/-- "ğ" is in the Turkish locking table and not in the Portuguese: of these choices one will do. -/
example : SameOffer [.locking [1, 3]] [.locking [3], .locking [1, 3]] ∧
    (∀ L ∈ offered [.locking [1, 3]], ∀ M ∈ offered [.locking [1, 3]],
      Representable L [0xc4, 0x9f] → Representable M [0xc4, 0x9f] → L = M) ∧
    EncodeUserData [0xc4, 0x9f] [.locking [1, 3]] = ([0x0c], [⟨25, [1]⟩], .a7Bit) := by
  have hp : ¬ Representable ⟨some 3, none⟩ [0xc4, 0x9f] := by
    rw [representable_iff]
    have he : (Gsm7.Encode [0xc4, 0x9f] (langOpts ⟨some 3, none⟩)).isOk = false := by decide +kernel
    rintro ⟨g, hg⟩
    rw [hg] at he
    cases he
  refine ⟨⟨?_, ?_⟩, ?_, ?_⟩
  · intro n; simp [offeredLocking, sinceAll, offersLocking]; omega
  · intro n; simp [offeredShift, sinceAll, offersShift]
  · have ho : offered [.locking [1, 3]] = [⟨some 1, none⟩, ⟨some 3, none⟩] := by decide
    rw [ho]
    intro L hL M hM h1 h2
    simp only [List.mem_cons, List.not_mem_nil, or_false] at hL hM
    rcases hL with rfl | rfl
    · rcases hM with rfl | rfl
      · rfl
      · exact absurd h2 hp
    · exact absurd h1 hp
  · decide +kernel

/-- C129_decodes applies to the text of the counterexample. -/
example : DecodeUserData (EncodeUserData (carets 1) [.charset [1, 3]]).1 (EncodeUserData (carets 1) [.charset [1, 3]]).2.1
      (EncodeUserData (carets 1) [.charset [1, 3]]).2.2 [.all] = ⟨carets 1, none⟩ ∧
    DecodeUserData (EncodeUserData (carets 1) [.charset [3, 1]]).1 (EncodeUserData (carets 1) [.charset [3, 1]]).2.1
      (EncodeUserData (carets 1) [.charset [3, 1]]).2.2 [.all] = ⟨carets 1, none⟩ := by
  refine C129_decodes (carets 1) [.charset [1, 3]] [.charset [3, 1]] [.all] ⟨?_, ?_⟩ ?_ (fun _ => by decide)
    ⟨[0xe7, 0x5e], by decide, by decide⟩
  · intro n; simp [offeredLocking, sinceAll, offersLocking]; omega
  · intro n; simp [offeredShift, sinceAll, offersShift]; omega
  · intro n h1 h2
    refine ⟨fun _ => ⟨.all, by simp, ?_⟩, fun _ => ⟨.all, by simp, ?_⟩⟩
    · simp only [offersLocking, List.mem_cons, List.not_mem_nil, or_false]; omega
    · simp only [offersShift, List.mem_cons, List.not_mem_nil, or_false]; omega

/-- C129 does not hold of the octets, of the header, nor of the number of TPDUs: a caret takes one septet in the
Portuguese locking table and two with the Turkish, and the first of them that has the "ç" is used. -/
theorem C129_counterexample :
    SameOffer [.charset [1], .charset [3]] [.charset [3], .charset [1]] ∧
    EncodeUserData (carets 1) [.charset [1], .charset [3]] = ([0x60, 0x1b, 0x14], [⟨25, [1]⟩], .a7Bit) ∧
    EncodeUserData (carets 1) [.charset [3], .charset [1]] = ([0x09, 0x16], [⟨25, [3]⟩], .a7Bit) ∧
    (Model.Sms.Encode (carets 140) [.charsets (.charset [1]), .charsets (.charset [3])]).map List.length = .ok 2 ∧
    (Model.Sms.Encode (carets 140) [.charsets (.charset [3]), .charsets (.charset [1])]).map List.length = .ok 1 := by
  refine ⟨⟨?_, ?_⟩, ?_, ?_, ?_, ?_⟩
  · intro n; simp [offeredLocking, sinceAll, offersLocking]; omega
  · intro n; simp [offeredShift, sinceAll, offersShift]; omega
  all_goals decide +kernel

end Verif.Props
