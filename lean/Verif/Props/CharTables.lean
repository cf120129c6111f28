import Verif.Spec.Alphabet
import Verif.Props.Gsm7

/-! C68: the character sets are those of 3GPP TS 23.038. -/

namespace Verif.Props
open Verif.Model Verif.Model.Gsm7 Verif.Model.Unicode Verif.Proofs Verif.Spec

/-- Language identifiers without a table. -/
theorem alphabet_unknown (nli : Int) (h : nli < 0 ∨ 13 < nli) : Alphabet.locking nli = Alphabet.locking 0 ∧ Alphabet.shift nli = Alphabet.shift 0 := by
  constructor
  · funext g; unfold Alphabet.locking; split <;> first | omega | rfl
  · funext g; unfold Alphabet.shift; split <;> first | omega | rfl

theorem fromRunes_lookup (g : UInt8) : ∀ (runes : List Nat) (k : Nat) (d : Charset.Decoder), k + runes.length ≤ 256 →
    ((runes.zipIdx k).foldl (fun d ri => Charset.insert d (byteOf ri.2) ri.1) d).lookup g =
      if k ≤ g.toNat ∧ g.toNat < k + runes.length then runes[g.toNat - k]? else d.lookup g := by
  intro runes
  induction runes with
  | nil => intro k d _; rw [if_neg (by rw [List.length_nil]; omega)]; rfl
  | cons r runes ih =>
    intro k d h
    simp only [List.length_cons] at h
    rw [List.zipIdx_cons, List.foldl_cons, ih (k + 1) _ (by omega), lookup_insert]
    have hb : byteOf (k : Int) = UInt8.ofNat k := byteOf_natCast k
    rw [hb]
    have hk : (UInt8.ofNat k).toNat = k := by simp; omega
    by_cases h1 : g.toNat = k
    · have hg : g = UInt8.ofNat k := UInt8.toNat_inj.1 (by omega)
      rw [if_neg (by omega), if_pos hg, if_pos (by simp; omega), h1]
      simp
    · have hg : g ≠ UInt8.ofNat k := fun h => h1 (by rw [h, hk])
      by_cases h2 : k + 1 ≤ g.toNat ∧ g.toNat < k + 1 + runes.length
      · rw [if_pos h2, if_pos (by simp; omega)]
        have : g.toNat - k = (g.toNat - (k + 1)) + 1 := by omega
        rw [this, List.getElem?_cons_succ]
      · rw [if_neg h2, if_neg hg, if_neg (by simp; omega)]

/-- Tables given as a list of 128 characters. -/
theorem fromRunes (runes : List Nat) (g : UInt8) (h : runes.length = 128) :
    (Charset.generateDecoderFromRunes runes).lookup g = runes[g.toNat]? := by
  unfold Charset.generateDecoderFromRunes
  rw [fromRunes_lookup g runes 0 [] (by omega)]
  split
  · rfl
  · rw [List.getElem?_eq_none (by omega)]; rfl

theorem lookup_toNat (d : Charset.Decoder) (g : UInt8) : d.lookup g = (d.map (fun p => (p.1.toNat, p.2))).lookup g.toNat := by
  induction d with
  | nil => rfl
  | cons p d ih =>
    rw [List.map_cons, List.lookup_cons, List.lookup_cons, ih]
    have : (g == p.1) = (g.toNat == p.1.toNat) := by
      rw [Bool.eq_iff_iff, beq_iff_eq, beq_iff_eq]; exact UInt8.toNat_inj.symm
    rw [this]

theorem lookup_range (T : Nat → Option Nat) (g n : Nat) (h : g < n) :
    ((List.range n).filterMap (fun g => (T g).map (fun r => (g, r)))).lookup g = T g := by
  have : ∀ l : List Nat, g ∈ l → (l.filterMap (fun g => (T g).map (fun r => (g, r)))).lookup g = T g := by
    intro l
    induction l with
    | nil => intro h; cases h
    | cons x l ih =>
      intro hm
      rw [List.filterMap_cons]
      by_cases hx : g = x
      · subst hx
        by_cases hl : g ∈ l
        · cases hT : T g with
          | none => simpa [hT] using ih hl
          | some r => simp
        · cases hT : T g with
          | none =>
            simp only [Option.map_none]
            have hno : ∀ l : List Nat, g ∉ l → (l.filterMap (fun g => (T g).map (fun r => (g, r)))).lookup g = none := by
              intro l
              induction l with
              | nil => intro _; rfl
              | cons y l ih =>
                intro hy
                rw [List.filterMap_cons]
                cases T y with
                | none => exact ih (fun h => hy (by simp [h]))
                | some r =>
                  simp only [Option.map_some]
                  rw [List.lookup_cons]
                  have : (g == y) = false := by simpa using fun h => hy (by simp [h])
                  rw [this]
                  exact ih (fun h => hy (by simp [h]))
            exact hno l hl
          | some r => simp
      · have hl : g ∈ l := by
          rcases List.mem_cons.1 hm with h | h
          · exact absurd h hx
          · exact h
        cases T x with
        | none => exact ih hl
        | some r =>
          simp only [Option.map_some]
          rw [List.lookup_cons]
          have : (g == x) = false := by simpa using hx
          rw [this]
          exact ih hl
  exact this _ (List.mem_range.2 h)

/-- C68, partial: the locking table of every language, known or not, is the one of the standard.  Missing: three
septets of the Hindi table, for which it is false. -/
theorem C68_locking_partial (nli : Int) (g : UInt8) (h : nli = 6 → 3 ≤ g.toNat) :
    (Charset.NewDecoder nli).lookup g = Alphabet.locking nli g.toNat := by
  have k0 : (Charset.NewDecoder 0).lookup g = Alphabet.locking 0 g.toNat := by
    show (Charset.generateDecoderFromRunes CharsetData.defaultRunes).lookup g = _
    rw [fromRunes _ g (by decide +kernel)]
    have : ∀ g : Nat, g < 256 → CharsetData.defaultRunes[g]? = Alphabet.locking 0 g := by decide +kernel
    exact this _ g.toNat_lt
  have key : ∀ n : Nat, n < 14 → 4 ≤ n → (Charset.NewDecoder n).map (fun p => (p.1.toNat, p.2)) =
      (List.range 256).filterMap (fun g => ((if n = 6 ∧ g < 3 then some (0x0981 + g) else Alphabet.locking n g)).map (fun r => (g, r))) := by
    decide +kernel
  by_cases hu : nli < 0 ∨ 13 < nli
  · rw [(alphabet_unknown nli hu).1, (C12_unknown nli hu).1]
    exact k0
  · obtain ⟨n, rfl⟩ := Int.eq_ofNat_of_zero_le (show 0 ≤ nli by omega)
    by_cases h4 : 4 ≤ n
    · rw [lookup_toNat]
      rw [key n (by omega) h4, lookup_range _ _ _ g.toNat_lt, if_neg]
      rintro ⟨rfl, hg⟩
      have := h rfl
      omega
    · rcases (show n = 0 ∨ n = 1 ∨ n = 2 ∨ n = 3 by omega) with rfl | rfl | rfl | rfl
      · exact k0
      · show (Charset.generateDecoderFromRunes CharsetData.turkishRunes).lookup g = _
        rw [fromRunes _ g (by decide +kernel)]
        have : ∀ g : Nat, g < 256 → CharsetData.turkishRunes[g]? = Alphabet.locking 1 g := by decide +kernel
        exact this _ g.toNat_lt
      · exact k0
      · show (Charset.generateDecoderFromRunes CharsetData.portugueseRunes).lookup g = _
        rw [fromRunes _ g (by decide +kernel)]
        have : ∀ g : Nat, g < 256 → CharsetData.portugueseRunes[g]? = Alphabet.locking 3 g := by decide +kernel
        exact this _ g.toNat_lt

/-- C68 is false of the Hindi locking table: the first three septets are given the signs of the Bengali script, and
the Devanagari signs candrabindu, anusvara and visarga cannot be encoded. -/
theorem C68_counterexample :
    [0, 1, 2].map (Alphabet.locking 6) = [some 0x0901, some 0x0902, some 0x0903] ∧
    [0, 1, 2].map (fun g => (Charset.NewDecoder 6).lookup g) = [some 0x0981, some 0x0982, some 0x0983] ∧
    [0x0901, 0x0902, 0x0903].map (fun r => Gsm7.Encode (encodeRune r) [.charset 6, .extCharset 6]) =
      [fail (.gsm7InvalidUTF8 0x0901), fail (.gsm7InvalidUTF8 0x0902), fail (.gsm7InvalidUTF8 0x0903)] := by
  decide +kernel

/-- The shift table, with CR2 read as the code does. -/
def shiftCR2 (nli : Int) (g : Nat) : Option Nat :=
  if g = 0x0d then some (if 4 ≤ nli ∧ nli ≤ 13 then 0x0d else 0x0a) else Alphabet.shift nli g

/-- C68: the shift table of every language is the one of the standard; the control character CR2, for which the
standard gives no character, is read as a line feed or a carriage return. -/
theorem C68_shift (nli : Int) (g : UInt8) : (Charset.NewExtDecoder nli).lookup g = shiftCR2 nli g.toNat := by
  have key : ∀ n : Nat, n < 14 → (Charset.NewExtDecoder n).map (fun p => (p.1.toNat, p.2)) =
      (List.range 256).filterMap (fun g => (shiftCR2 n g).map (fun r => (g, r))) := by
    decide +kernel
  rw [lookup_toNat]
  by_cases hu : nli < 0 ∨ 13 < nli
  · rw [(C12_unknown nli hu).2.2.1]
    refine (congrArg (List.lookup g.toNat) (key 0 (by decide))).trans ((lookup_range _ _ _ g.toNat_lt).trans ?_)
    unfold shiftCR2
    rw [(alphabet_unknown nli hu).2, if_neg (show ¬ (4 ≤ nli ∧ nli ≤ 13) by omega)]
    rfl
  · obtain ⟨n, rfl⟩ := Int.eq_ofNat_of_zero_le (show 0 ≤ nli by omega)
    rw [key n (by omega), lookup_range _ _ _ g.toNat_lt]

theorem loop_read (d : Decoder) (hd : d.strict = false) (L S : Nat → Option Nat) : ∀ (n : Nat) (src : List UInt8), src.length ≤ n →
    (∀ g ∈ src, d.set.lookup g = L g.toNat) → (∀ g ∈ src, d.ext.lookup g = S g.toNat) →
    d.loop src false = .ok (encodeRunes (Alphabet.read L S (src.map UInt8.toNat))) := by
  intro n
  induction n with
  | zero => intro src h _ _; cases src with
    | nil => rfl
    | cons => simp at h
  | succ n ih =>
    intro src hlen hl hs
    match src with
    | [] => rfl
    | g :: rest =>
      by_cases hg : g = 0x1b
      · subst hg
        match rest with
        | [] => rfl
        | g2 :: rest =>
          have ih' := ih rest (by simp at hlen; omega) (fun g h => hl g (by simp [h])) (fun g h => hs g (by simp [h]))
          rw [Decoder.loop, if_pos (show (0x1b : UInt8) = esc from rfl), Decoder.loop]
          by_cases hg2 : g2 = 0x1b
          · subst hg2
            rw [if_pos (show (0x1b : UInt8) = esc from rfl), ih']
            rfl
          · rw [if_neg (show ¬ g2 = esc from hg2), hl g2 (by simp), hs g2 (by simp), hd, ih']
            have hn : g2.toNat ≠ 0x1b := fun h => hg2 (UInt8.toNat_inj.1 h)
            have hr : Alphabet.read L S (List.map UInt8.toNat (0x1b :: g2 :: rest)) =
                (S g2.toNat).getD ((L g2.toNat).getD 0x20) :: Alphabet.read L S (rest.map UInt8.toNat) := by
              show Alphabet.read L S (0x1b :: g2.toNat :: rest.map UInt8.toNat) = _
              rw [Alphabet.read]
              exact hn
            rw [hr]
            cases S g2.toNat <;> cases L g2.toNat <;> rfl
      · have ih' := ih rest (by simp at hlen; omega) (fun g h => hl g (by simp [h])) (fun g h => hs g (by simp [h]))
        have hn : g.toNat ≠ 0x1b := fun h => hg (UInt8.toNat_inj.1 h)
        rw [Decoder.loop, if_neg (show ¬ g = esc from hg), hl g (by simp), hd, ih']
        have hr : Alphabet.read L S (List.map UInt8.toNat (g :: rest)) =
            (L g.toNat).getD 0x20 :: Alphabet.read L S (rest.map UInt8.toNat) := by
          rw [List.map_cons, Alphabet.read]
          all_goals (intros; first | contradiction | exact absurd (by assumption) hn | skip)
        rw [hr]
        cases L g.toNat <;> rfl

/-- C68, partial: whatever the octets are, and whichever locking table and shift table are chosen, `gsm7.Decode`
reads them as the standard says.  Missing: the first three septets of the Hindi locking table. -/
theorem C68_decode_partial (l s : Int) (src : List UInt8) (h : l = 6 → ∀ g ∈ src, 3 ≤ g.toNat) :
    Gsm7.Decode src [.charset l, .extCharset s] =
      .ok (encodeRunes (Alphabet.read (Alphabet.locking l) (shiftCR2 s) (src.map UInt8.toNat))) := by
  unfold Gsm7.Decode
  rw [decoder_decode_eq]
  exact loop_read _ rfl _ _ _ src (Nat.le_refl _) (fun g hg => C68_locking_partial l g (fun hl => h hl g hg)) (fun g _ => C68_shift s g)

/-- Beside C68: a text in Turkish, with an escape before a letter of the locking table alone. -/
example : Gsm7.Decode [0x48, 0x1b, 0x67, 0x1b, 0x48, 0x07] [.charset 1, .extCharset 1] = .ok (encodeRunes (['H', 'ğ', 'H', 'ı'].map Char.toNat)) := by
  decide +kernel

/-- C68, partial: the encoders are the inverse of these tables: the septet of a character is the least one that the
standard reads as that character.  Missing: the Hindi locking table. -/
theorem C68_encoder_partial (nli : Int) (r : Nat) (g : UInt8) :
    (nli ≠ 6 → ((Charset.NewEncoder nli).lookup r = some g ↔ Alphabet.locking nli g.toNat = some r ∧
      ∀ g' : Nat, g' < g.toNat → Alphabet.locking nli g' ≠ some r)) ∧
    ((Charset.NewExtEncoder nli).lookup r = some g ↔ shiftCR2 nli g.toNat = some r ∧
      ∀ g' : Nat, g' < g.toNat → shiftCR2 nli g' ≠ some r) := by
  have gen : ∀ (e : Charset.Encoder) (d : Charset.Decoder) (T : Nat → Option Nat), (∀ g : UInt8, d.lookup g = T g.toNat) →
      (∀ r g, e.lookup r = some g → d.lookup g = some r) →
      (∀ r g, d.lookup g = some r → ∃ g', e.lookup r = some g' ∧ g' ≤ g) →
      (e.lookup r = some g ↔ T g.toNat = some r ∧ ∀ g' : Nat, g' < g.toNat → T g' ≠ some r) := by
    intro e d T hT h1 h2
    have hof : ∀ g' : Nat, g' < g.toNat → (UInt8.ofNat g').toNat = g' := by
      intro g' hg'
      have := g.toNat_lt
      simp; omega
    constructor
    · intro h
      refine ⟨by rw [← hT]; exact h1 r g h, ?_⟩
      intro g' hg' ht
      obtain ⟨g'', e1, e2⟩ := h2 r (UInt8.ofNat g') (by rw [hT, hof g' hg']; exact ht)
      rw [h] at e1
      cases e1
      have := UInt8.le_iff_toNat_le.1 e2
      rw [hof g' hg'] at this
      omega
    · rintro ⟨h, hmin⟩
      obtain ⟨g', e1, e2⟩ := h2 r g (by rw [hT]; exact h)
      have e3 := UInt8.le_iff_toNat_le.1 e2
      by_cases hlt : g'.toNat < g.toNat
      · exact absurd (by rw [← hT]; exact h1 r g' e1) (hmin _ hlt)
      · have : g' = g := UInt8.toNat_inj.1 (by omega)
        rw [← this]; exact e1
  exact ⟨fun hn => gen _ _ _ (fun g => C68_locking_partial nli g (fun h => absurd h hn)) (fun r g h => ((C12_section nli r g).1 h).1)
      (fun r g h => (C12_complete nli r g).1 h),
    gen _ _ _ (fun g => C68_shift nli g) (fun r g h => ((C12_section nli r g).2 h).1) (fun r g h => (C12_complete nli r g).2 h)⟩

example : (Charset.NewEncoder 0).lookup 0xe0 = some 0x7f ∧ Alphabet.locking 0 0x7f = some 0xe0 ∧
    (Charset.NewExtEncoder 4).lookup 0x2a = some 0x0b ∧ Alphabet.shift 4 0x0b = some 0x2a ∧ Alphabet.shift 4 0x18 = some 0x2a := by
  decide +kernel

end Verif.Props
