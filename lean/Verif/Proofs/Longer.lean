import Verif.Proofs.Offer
import Verif.Proofs.Utf8
import Verif.Props.Settings

/-! Helper lemmas: what becomes of the pieces of a message when the end of the message is left out. -/

namespace Verif.Proofs.Longer
open Verif.Model Verif.Spec Verif.Proofs Verif.Props

theorem idx_prefix {α : Type} {a b : List α} {i : Int} {x : α} (h : idx (a ++ b) i = .ok x) (hi : i < a.length) : idx a i = .ok x := by
  unfold idx at *
  split at h
  · rename_i h0
    rw [if_pos h0]
    rw [List.getElem?_append_left (by omega)] at h
    exact h
  · cases h

theorem slice_prefix {α : Type} {a b : List α} {i j : Int} {c : List α} (h : slice (a ++ b) i j = .ok c) (hj : j ≤ a.length) :
    slice a i j = .ok c ∧ i ≤ j := by
  unfold slice at *
  split at h
  · rename_i h0
    rw [if_pos ⟨h0.1, h0.2.1, hj⟩, ← h, List.take_append_of_le_length (by omega)]
    exact ⟨rfl, h0.2.1⟩
  · cases h

theorem slice_rest {α : Type} (a : List α) {i : Int} (h0 : 0 ≤ i) (h : i ≤ a.length) : ∃ c, slice a i a.length = .ok c := by
  unfold slice
  rw [if_pos ⟨h0, h, Int.le_refl _⟩]
  exact ⟨_, rfl⟩

theorem chunk7_some {msg : Bytes} {bs : Int} {fuel : Nat} {s : Int} {cs : List Bytes} (h : chunk7Loop msg bs fuel s = .ok cs) :
    1 ≤ cs.length := by
  cases fuel with
  | zero => cases h
  | succ n =>
    unfold chunk7Loop at h
    simp only at h
    split at h
    · obtain ⟨_, _, h⟩ := bind_eq_ok.1 h
      obtain ⟨_, _, h⟩ := bind_eq_ok.1 h
      obtain ⟨_, _, h⟩ := bind_eq_ok.1 h
      split at h
      · cases h
      · obtain ⟨_, _, h⟩ := bind_eq_ok.1 h
        cases h; simp
    · obtain ⟨_, _, h⟩ := bind_eq_ok.1 h
      cases h; simp

theorem chunk7_prefix (a b : Bytes) (bs : Int) : ∀ (fuel fuel' : Nat) (s : Int) (cs : List Bytes), 0 ≤ s → s ≤ a.length →
    a.length - s < fuel' → chunk7Loop (a ++ b) bs fuel s = .ok cs → ∃ cs', chunk7Loop a bs fuel' s = .ok cs' ∧ cs'.length ≤ cs.length
  | 0, _, _, _, _, _, _, h => by cases h
  | _ + 1, 0, s, _, _, _, hf, _ => by omega
  | fuel + 1, fuel' + 1, s, cs, h0, hs, hf, h => by
    have h1 := chunk7_some h
    unfold chunk7Loop at h ⊢
    simp only at h ⊢
    by_cases hb : s + bs < a.length
    · rw [if_pos (by simp; omega)] at h
      rw [if_pos hb]
      obtain ⟨e1, g1, h⟩ := bind_eq_ok.1 h
      obtain ⟨x, g2, h⟩ := bind_eq_ok.1 h
      obtain ⟨c, g3, h⟩ := bind_eq_ok.1 h
      rw [idx_prefix g1 (by omega), ok_bind]
      have hx : x ≤ s + bs ∧ (if e1 = esc then (do
          let e2 ← idx a (s + bs - 2)
          return (if e2 ≠ esc then s + bs - 1 else s + bs)) else .ok (s + bs) : M Int) = .ok x := by
        split at g2
        · rename_i he
          obtain ⟨e2, g4, g5⟩ := bind_eq_ok.1 g2
          rw [if_pos he, idx_prefix g4 (by omega), ok_bind]
          refine ⟨?_, g5⟩
          have g5 := Except.ok.inj g5
          split at g5 <;> omega
        · rename_i he
          rw [if_neg he]
          cases g2
          exact ⟨Int.le_refl _, rfl⟩
      rw [hx.2, ok_bind]
      obtain ⟨g6, g7⟩ := slice_prefix g3 (by omega)
      rw [g6, ok_bind]
      split at h
      · cases h
      · rename_i hne
        rw [if_neg hne]
        obtain ⟨cs1, g8, h⟩ := bind_eq_ok.1 h
        cases h
        obtain ⟨cs', k1, k2⟩ := chunk7_prefix a b bs fuel fuel' x cs1 (by omega) (by omega) (by omega) g8
        rw [k1]
        exact ⟨_, rfl, by simpa using k2⟩
    · rw [if_neg hb]
      obtain ⟨c, hc⟩ := slice_rest a h0 hs
      rw [hc]
      exact ⟨_, rfl, by simpa using h1⟩

theorem chunk8_some {msg : Bytes} {bs : Int} {fuel : Nat} {s : Int} {cs : List Bytes} (h : chunk8Loop msg bs fuel s = .ok cs) :
    1 ≤ cs.length := by
  cases fuel with
  | zero => cases h
  | succ n =>
    unfold chunk8Loop at h
    simp only at h
    split at h
    · obtain ⟨_, _, h⟩ := bind_eq_ok.1 h
      split at h
      · cases h
      · obtain ⟨_, _, h⟩ := bind_eq_ok.1 h
        cases h; simp
    · obtain ⟨_, _, h⟩ := bind_eq_ok.1 h
      cases h; simp

theorem chunk8_prefix (a b : Bytes) (bs : Int) : ∀ (fuel fuel' : Nat) (s : Int) (cs : List Bytes), 0 ≤ s → s ≤ a.length →
    a.length - s < fuel' → chunk8Loop (a ++ b) bs fuel s = .ok cs → ∃ cs', chunk8Loop a bs fuel' s = .ok cs' ∧ cs'.length ≤ cs.length
  | 0, _, _, _, _, _, _, h => by cases h
  | _ + 1, 0, s, _, _, _, hf, _ => by omega
  | fuel + 1, fuel' + 1, s, cs, h0, hs, hf, h => by
    have h1 := chunk8_some h
    unfold chunk8Loop at h ⊢
    simp only at h ⊢
    by_cases hb : s + bs < a.length
    · rw [if_pos (by simp; omega)] at h
      rw [if_pos hb]
      obtain ⟨c, g3, h⟩ := bind_eq_ok.1 h
      obtain ⟨g6, g7⟩ := slice_prefix g3 (by omega)
      rw [g6, ok_bind]
      split at h
      · cases h
      · rename_i hne
        rw [if_neg hne]
        obtain ⟨cs1, g8, h⟩ := bind_eq_ok.1 h
        cases h
        obtain ⟨cs', k1, k2⟩ := chunk8_prefix a b bs fuel fuel' _ cs1 (by omega) (by omega) (by omega) g8
        rw [k1]
        exact ⟨_, rfl, by simpa using k2⟩
    · rw [if_neg hb]
      obtain ⟨c, hc⟩ := slice_rest a h0 hs
      rw [hc]
      exact ⟨_, rfl, by simpa using h1⟩

theorem chunkU_some {msg : Bytes} {bs : Int} {fuel : Nat} {s : Int} {cs : List Bytes} (h : chunkUCS2Loop msg bs fuel s = .ok cs) :
    1 ≤ cs.length := by
  cases fuel with
  | zero => cases h
  | succ n =>
    unfold chunkUCS2Loop at h
    simp only at h
    split at h
    · obtain ⟨_, _, h⟩ := bind_eq_ok.1 h
      obtain ⟨_, _, h⟩ := bind_eq_ok.1 h
      obtain ⟨_, _, h⟩ := bind_eq_ok.1 h
      generalize (if 0xd800 ≤ _ ∧ _ < 0xdc00 then _ else _ : Int) = x at h
      by_cases hx : x = s
      · rw [if_pos hx] at h; cases h
      · rw [if_neg hx] at h
        obtain ⟨_, _, h⟩ := bind_eq_ok.1 h
        cases h; simp
    · obtain ⟨_, _, h⟩ := bind_eq_ok.1 h
      cases h; simp

theorem chunkU_prefix (a b : Bytes) (bs : Int) : ∀ (fuel fuel' : Nat) (s : Int) (cs : List Bytes), 0 ≤ s → s ≤ a.length →
    a.length - s < fuel' → chunkUCS2Loop (a ++ b) bs fuel s = .ok cs →
    ∃ cs', chunkUCS2Loop a bs fuel' s = .ok cs' ∧ cs'.length ≤ cs.length
  | 0, _, _, _, _, _, _, h => by cases h
  | _ + 1, 0, s, _, _, _, hf, _ => by omega
  | fuel + 1, fuel' + 1, s, cs, h0, hs, hf, h => by
    have h1 := chunkU_some h
    unfold chunkUCS2Loop at h ⊢
    simp only at h ⊢
    by_cases hb : s + bs < a.length
    · rw [if_pos (by simp; omega)] at h
      rw [if_pos hb]
      obtain ⟨u, g1, h⟩ := bind_eq_ok.1 h
      obtain ⟨r, g2, h⟩ := bind_eq_ok.1 h
      obtain ⟨c, g3, h⟩ := bind_eq_ok.1 h
      rw [(slice_prefix g1 (by omega)).1, ok_bind, g2, ok_bind]
      have hx : (if 0xd800 ≤ r ∧ r < 0xdc00 then s + bs - 2 else s + bs) ≤ s + bs := by split <;> omega
      generalize (if 0xd800 ≤ r ∧ r < 0xdc00 then s + bs - 2 else s + bs) = x at *
      obtain ⟨g6, g7⟩ := slice_prefix g3 (by omega)
      rw [g6, ok_bind]
      by_cases hne : x = s
      · rw [if_pos hne] at h; cases h
      · rw [if_neg hne] at h
        rw [if_neg hne]
        obtain ⟨cs1, g8, h⟩ := bind_eq_ok.1 h
        cases h
        obtain ⟨cs', k1, k2⟩ := chunkU_prefix a b bs fuel fuel' x cs1 (by omega) (by omega) (by omega) g8
        rw [k1]
        exact ⟨_, rfl, by simpa using k2⟩
    · rw [if_neg hb]
      obtain ⟨c, hc⟩ := slice_rest a h0 hs
      rw [hc]
      exact ⟨_, rfl, by simpa using h1⟩

theorem checkCount_pos (msg : Bytes) {bs : Int} (h : 0 < bs) : checkCount msg bs = .ok () := by
  unfold checkCount
  rw [if_neg (by omega), if_neg]
  have := Int.tdiv_nonneg (a := (msg.length : Int)) (b := bs) (by omega) (by omega)
  omega

theorem chunk_prefix (a b : Bytes) (ha : a ≠ []) (al : Alphabet) (bs : Int) (cs : List Bytes) (h : chunk (a ++ b) al bs = .ok cs) :
    ∃ cs', chunk a al bs = .ok cs' ∧ cs'.length ≤ cs.length ∧ 1 ≤ cs.length := by
  have hpos : 0 < bs := by
    by_cases hp : bs ≤ 0
    · obtain ⟨k, hk⟩ := chunk_nonpos (a ++ b) (by simp [ha]) al bs hp
      rw [h] at hk; cases hk
    · omega
  have hl : ¬ a.length = 0 := by simpa using ha
  have hl' : ¬ (a ++ b).length = 0 := by simp [ha]
  have h8 : chunk8Bit (a ++ b) bs = .ok cs → ∃ cs', chunk8Bit a bs = .ok cs' ∧ cs'.length ≤ cs.length ∧ 1 ≤ cs.length := by
    intro h
    unfold chunk8Bit at h ⊢
    rw [if_neg hl'] at h
    rw [if_neg hl, checkCount_pos a hpos]
    obtain ⟨_, _, h⟩ := bind_eq_ok.1 h
    obtain ⟨cs', e1, e2⟩ := chunk8_prefix a b bs _ (a.length + 1) 0 cs (by omega) (by omega) (by omega) h
    exact ⟨cs', e1, e2, chunk8_some h⟩
  have h7 : chunk7Bit (a ++ b) bs = .ok cs → ∃ cs', chunk7Bit a bs = .ok cs' ∧ cs'.length ≤ cs.length ∧ 1 ≤ cs.length := by
    intro h
    unfold chunk7Bit at h ⊢
    rw [if_neg hl'] at h
    rw [if_neg hl, checkCount_pos a hpos]
    obtain ⟨_, _, h⟩ := bind_eq_ok.1 h
    obtain ⟨cs', e1, e2⟩ := chunk7_prefix a b bs _ (a.length + 1) 0 cs (by omega) (by omega) (by omega) h
    exact ⟨cs', e1, e2, chunk7_some h⟩
  have hU : chunkUCS2 (a ++ b) bs = .ok cs → ∃ cs', chunkUCS2 a bs = .ok cs' ∧ cs'.length ≤ cs.length ∧ 1 ≤ cs.length := by
    intro h
    unfold chunkUCS2 at h ⊢
    rw [if_neg hl'] at h
    rw [if_neg hl]
    simp only at h ⊢
    obtain ⟨_, hc, h⟩ := bind_eq_ok.1 h
    have hp : 0 < bs - bs % 2 := by
      have : bs - bs % 2 ≠ 0 := by
        intro e
        rw [e] at hc
        cases hc
      omega
    rw [checkCount_pos a hp]
    obtain ⟨cs', e1, e2⟩ := chunkU_prefix a b _ _ (a.length + 1) 0 cs (by omega) (by omega) (by omega) h
    exact ⟨cs', e1, e2, chunkU_some h⟩
  cases al with
  | a7Bit => exact h7 h
  | a8Bit => exact h8 h
  | ucs2 => exact hU h
  | reserved => exact h7 h

/-- Leaving out the end of a message does not take more segments. -/
theorem segment_prefix (t : TPDU) (a b : Bytes) (cfg : SegCfg) (res : SegResult) (h : t.Segment (a ++ b) cfg = .ok res) :
    ∃ res', t.Segment a cfg = .ok res' ∧ res'.pdus.length ≤ res.pdus.length := by
  by_cases ha : a = []
  · subst ha; exact ⟨_, rfl, by simp⟩
  have hab : a ++ b ≠ [] := by simp [ha]
  by_cases hs : ((a ++ b).length : Int) ≤ t.UDBlockSize
  · obtain ⟨res', g1, g2⟩ := C33_single t a cfg ha (by simp at hs; omega)
    obtain ⟨res2, g3, g4⟩ := C33_single t (a ++ b) cfg hab hs
    rw [h] at g3; cases g3
    exact ⟨res', g1, by rw [g2, g4]; simp⟩
  · obtain ⟨k1, k2⟩ := segment_chunks t (a ++ b) cfg hab hs
    cases hc : chunk (a ++ b) t.Alphabet.1 (segTemplate t cfg).UDBlockSize with
    | error f => rw [k2 f hc] at h; cases h
    | ok cs =>
      obtain ⟨res2, g3, g4, _⟩ := k1 cs hc
      rw [h] at g3; cases g3
      obtain ⟨cs', c1, c2, c3⟩ := chunk_prefix a b ha _ _ cs hc
      have hlen : res.pdus.length = cs.length := by rw [g4]; simp
      by_cases hs' : (a.length : Int) ≤ t.UDBlockSize
      · obtain ⟨res', g1, g2⟩ := C33_single t a cfg ha hs'
        refine ⟨res', g1, ?_⟩
        rw [g2, hlen]; simpa using c3
      · obtain ⟨res', g1, g2, _⟩ := (segment_chunks t a cfg ha hs').1 cs' c1
        exact ⟨res', g1, by rw [hlen, g2]; simpa using c2⟩

/-! Texts. -/

theorem decodeRunesAux_enough : ∀ (n m : Nat) (p : Bytes), p.length ≤ n → p.length ≤ m →
    Unicode.decodeRunesAux n p = Unicode.decodeRunesAux m p
  | 0, m, p, h, _ => by
    have : p = [] := List.length_eq_zero_iff.1 (by omega)
    subst this; cases m <;> rfl
  | n + 1, 0, p, _, h => by
    have : p = [] := List.length_eq_zero_iff.1 (by omega)
    subst this; rfl
  | n + 1, m + 1, [], _, _ => rfl
  | n + 1, m + 1, b :: t, h, h' => by
    have hl : (t.drop ((Unicode.decodeRune b t).2 - 1)).length ≤ t.length := by rw [List.length_drop]; omega
    simp only [List.length_cons] at h h'
    simp only [Unicode.decodeRunesAux]
    rw [decodeRunesAux_enough n m _ (by omega) (by omega)]

theorem decodeRunesAux_fuel (n : Nat) (p : Bytes) (h : p.length ≤ n) : Unicode.decodeRunesAux n p = Unicode.decodeRunes p :=
  decodeRunesAux_enough n p.length p h (Nat.le_refl _)

theorem decodeRunes_append_encodeRunes (rs : List Nat) (h : ∀ r ∈ rs, Unicode.isScalar r = true) (b : Bytes) :
    Unicode.decodeRunes (Unicode.encodeRunes rs ++ b) = rs ++ Unicode.decodeRunes b := by
  induction rs with
  | nil => rfl
  | cons r rs ih =>
    obtain ⟨b0, t, e, hd⟩ := decodeRune_encodeRune r (h r (by simp))
    have e' : Unicode.encodeRunes (r :: rs) ++ b = b0 :: (t ++ (Unicode.encodeRunes rs ++ b)) := by
      simp [Unicode.encodeRunes, e]
    rw [e']
    unfold Unicode.decodeRunes
    simp only [List.length_cons, Unicode.decodeRunesAux, hd]
    rw [Nat.add_sub_cancel, List.drop_left, decodeRunesAux_fuel _ _ (by simp), ih (fun x hx => h x (by simp [hx]))]
    rfl

/-- The characters of a text that begins with whole characters. -/
theorem decodeRunes_utf8 {a : Bytes} (ha : Utf8 a) (b : Bytes) :
    Unicode.decodeRunes (a ++ b) = Unicode.decodeRunes a ++ Unicode.decodeRunes b := by
  obtain ⟨rs, h1, rfl⟩ := (utf8_iff a).1 ha
  have hs : ∀ r ∈ rs, Unicode.isScalar r = true := fun r hr => by
    have := h1 r hr
    unfold Scalar at this
    rw [isScalar_iff]; omega
  rw [decodeRunes_append_encodeRunes rs hs, decodeRunes_encodeRunes rs hs]

theorem loop_append (e : Gsm7.Encoder) : ∀ (us vs : List Nat) (g : Bytes), e.loop (us ++ vs) = .ok g →
    ∃ g1 g2, e.loop us = .ok g1 ∧ g = g1 ++ g2
  | [], vs, g, _ => ⟨[], g, rfl, rfl⟩
  | u :: us, vs, g, h => by
    rw [List.cons_append] at h
    unfold Gsm7.Encoder.loop at h ⊢
    split at h
    · rename_i x hx
      obtain ⟨r, h1, h2⟩ := bind_eq_ok.1 h
      cases h2
      obtain ⟨g1, g2, k1, rfl⟩ := loop_append e us vs r h1
      rw [k1]
      exact ⟨x :: g1, g2, rfl, rfl⟩
    · split at h
      · rename_i x hx
        obtain ⟨r, h1, h2⟩ := bind_eq_ok.1 h
        cases h2
        obtain ⟨g1, g2, k1, rfl⟩ := loop_append e us vs r h1
        rw [k1]
        exact ⟨Gsm7.esc :: x :: g1, g2, rfl, rfl⟩
      · cases h

/-- What UCS-2 segments hold. -/
theorem ucs2_fits (t : TPDU) (msg : Bytes) (cfg : SegCfg) (ha : t.Alphabet.1 = .ucs2) (hne : msg ≠ []) (res : SegResult)
    (h : t.Segment msg cfg = .ok res) :
    (msg.length : Int) ≤ t.UDBlockSize ∧ res.pdus.length = 1 ∨
    ∃ bs : Nat, (segTemplate t cfg).UDBlockSize = bs ∧ 0 < bs ∧ msg.length ≤ bs * res.pdus.length := by
  by_cases hbig : (msg.length : Int) ≤ t.UDBlockSize
  · obtain ⟨res', h1, h2⟩ := C33_single t msg cfg hne hbig
    rw [h] at h1; cases h1
    exact .inl ⟨hbig, by rw [h2]; rfl⟩
  · obtain ⟨h1, h2⟩ := segment_chunks t msg cfg hne hbig
    cases hc : chunk msg t.Alphabet.1 (segTemplate t cfg).UDBlockSize with
    | error f => rw [h2 f hc] at h; cases h
    | ok cs =>
      obtain ⟨res', e1, e2, _⟩ := h1 cs hc
      rw [h] at e1; cases e1
      have hlen : res.pdus.length = cs.length := by rw [e2]; simp
      rw [hlen]
      by_cases hp : (segTemplate t cfg).UDBlockSize ≤ 0
      · obtain ⟨k, hk⟩ := chunk_nonpos msg hne t.Alphabet.1 _ hp
        rw [hc] at hk; cases hk
      · obtain ⟨n, hn⟩ : ∃ n : Nat, (segTemplate t cfg).UDBlockSize = n := ⟨(segTemplate t cfg).UDBlockSize.toNat, by omega⟩
        refine .inr ⟨n, hn, by omega, ?_⟩
        rw [ha, hn] at hc
        have hc : chunkUCS2 msg (n : Int) = .ok cs := hc
        unfold chunkUCS2 at hc
        rw [if_neg (by simpa using hne)] at hc
        obtain ⟨_, _, hc⟩ := bind_eq_ok.1 hc
        have hbs : (n : Int) - (n : Int) % 2 = (n - n % 2 : Nat) := by omega
        rw [hbs] at hc
        have := Offer.ucs2_chunks msg _ _ 0 cs hc
        have := Nat.mul_le_mul_right cs.length (Nat.sub_le n (n % 2))
        omega

/-- A text in septets takes no more TPDUs than one with as many characters in UCS-2, if the headers leave it as much
room. -/
theorem septets_ucs2 (t tU : TPDU) (g m : Bytes) (cfg : SegCfg) (ha : t.Alphabet.1 = .a7Bit) (haU : tU.Alphabet.1 = .ucs2)
    (hlen : g.length ≤ m.length) (h1 : 0 < tU.UDBlockSize → tU.UDBlockSize ≤ t.UDBlockSize)
    (h2 : 0 < (segTemplate tU cfg).UDBlockSize → (segTemplate tU cfg).UDBlockSize + 1 ≤ (segTemplate t cfg).UDBlockSize)
    (res : SegResult) (h : tU.Segment m cfg = .ok res) :
    ∃ res', t.Segment g cfg = .ok res' ∧ res'.pdus.length ≤ res.pdus.length := by
  by_cases hg : g = []
  · subst hg; exact ⟨_, rfl, by simp⟩
  have hpos : 0 < g.length := List.length_pos_iff.2 hg
  have hm : m ≠ [] := by rintro rfl; simp at hlen; exact hg hlen
  rcases ucs2_fits tU m cfg haU hm res h with ⟨f1, f2⟩ | ⟨bs, f1, f2, f3⟩
  · have := h1 (by omega)
    obtain ⟨res', k1, k2⟩ := C33_single t g cfg hg (by omega)
    exact ⟨res', k1, by rw [k2, f2]; simp⟩
  · have hb := h2 (by omega)
    have hroom : Room t cfg := by unfold Room; rw [ha]; simp only [minBlock]; omega
    obtain ⟨res', k1, _⟩ := C33_pieces t g cfg hroom
    refine ⟨res', k1, ?_⟩
    have hcount := Offer.septet_segments t g cfg ha hg hroom res' k1 bs (by omega)
    have : (res'.pdus.length - 1) * bs < res.pdus.length * bs := by
      rw [Nat.mul_comm res.pdus.length]; omega
    have := Nat.lt_of_mul_lt_mul_right this
    omega

end Verif.Proofs.Longer
