import Verif.Props.Segment2

/-! C58 for UCS-2 messages that are not well formed. -/

namespace Verif.Props
open Verif.Model Verif.Proofs Verif.Spec

theorem cuts_fill {adj bs} (msg : Bytes) (hlo : ∀ b, b + bs ≤ adj (b + bs) + 2) :
    ∀ fuel b, ∀ pre last, cutsLoop adj bs msg fuel b = pre ++ [last] → ∀ c ∈ pre, bs ≤ c.length + 2 := by
  intro fuel
  induction fuel with
  | zero => intro b pre last h; simp [cutsLoop] at h
  | succ n ih =>
    intro b pre last h c hc
    unfold cutsLoop at h
    split at h
    · rename_i hlt
      cases pre with
      | nil => cases hc
      | cons p pre =>
        simp only [List.cons_append, List.cons.injEq] at h
        rcases List.mem_cons.1 hc with rfl | hc
        · rw [← h.1]
          simp only [List.length_take, List.length_drop]
          have := hlo b
          by_cases hx : adj (b + bs) ≤ msg.length
          · omega
          · omega
        · exact ih _ _ _ h.2 c hc
    · cases pre with
      | nil => cases hc
      | cons p pre => simp at h

/-- C58 for any UCS-2 message, well formed or not: no cutting into pieces that fit a segment, of whole units, none of
which but the last ends with a high surrogate, uses fewer pieces; and each segment but the last has room for
at most one more unit. -/
theorem C58_malformed_partial (t : TPDU) (msg : List UInt8) (cfg : SegCfg) (h : Room t cfg) (ha : t.Alphabet.1 = .ucs2)
    (res : SegResult) (hr : t.Segment msg cfg = .ok res) :
    (∀ (pieces : List (List UInt8)), pieces.flatten = msg →
      (∀ p ∈ pieces, (p.length : Int) ≤ (segTemplate t cfg).UDBlockSize) →
      (∀ pre suf, pieces = pre ++ suf → pre ≠ [] → suf ≠ [] →
        pre.flatten.length % 2 = 0 ∧ ∀ u ∈ (units pre.flatten).getLast?, ¬ HighSurrogate u) →
      res.pdus.length ≤ pieces.length) ∧
    ∀ pre last, res.pdus = pre ++ [last] → ∀ p ∈ pre, (segTemplate t cfg).UDBlockSize ≤ p.UD.length + 2 := by
  by_cases hne : msg = []
  · subst hne; cases hr; simp
  by_cases hbig : (msg.length : Int) ≤ t.UDBlockSize
  · obtain ⟨res', h1, h2⟩ := C33_single t msg cfg hne hbig
    rw [hr] at h1; cases h1
    rw [h2]
    refine ⟨fun pieces hc _ _ => ?_, fun pre last e p hp => ?_⟩
    · cases pieces with
      | nil => exact absurd hc.symm hne
      | cons _ _ => simp
    · cases pre with
      | nil => cases hp
      | cons _ _ => simp at e
  obtain ⟨res', cs, bs, h1, h2, h3, h4, h5, h6, h7, _⟩ := segment_pieces t msg cfg hne h hbig
  rw [hr] at h1; cases h1
  have hlen : res.pdus.length = cs.length := by rw [h5]; simp
  have hml : 0 < msg.length := by
    have : ¬ msg.length = 0 := by simpa using hne
    omega
  have heven : bs % 2 = 0 := by
    rw [blockSize_eq] at h2
    have : (segTemplate t cfg).Alphabet = t.Alphabet := rfl
    rw [this, ha] at h2
    simp only [unitsLeft] at h2; omega
  rw [ha] at h3 h4 h7
  have hround : roundBlock .ucs2 bs = bs := by simp only [roundBlock]; omega
  rw [hround] at h4 h7
  simp only [minBlock] at h3
  refine ⟨fun pieces hc hfit hns => ?_, fun pre last e p hp => ?_⟩
  · rw [hlen, h4]
    refine cuts_min msg h7 (adjU_even msg bs heven)
      (fun y => y ≤ msg.length → y % 2 = 0 ∧ ∀ u ∈ (units (msg.take y)).getLast?, ¬ HighSurrogate u)
      ?_ _ 0 (by omega) rfl 0 pieces (Nat.le_refl _) hml hc (fun p hp => by have := hfit p hp; omega) ?_
    · intro b y hq hb hg hy
      have hq : b % 2 = 0 := hq
      obtain ⟨hg1, hg2⟩ := hg (by omega)
      show y ≤ adjU msg (b + bs)
      unfold adjU
      split
      · rename_i hh
        by_cases e : y = b + bs
        · exfalso
          subst e
          obtain ⟨x, z, hx, hz, hu⟩ := hh
          exact hg2 _ ((units_take_last _ _ (by omega) hg1 (by omega) _).mpr ⟨x, z, hx, hz, rfl⟩) hu
        · omega
      · exact hy
    · intro pre suf e hp hs hle
      have hfl : pre.flatten ++ suf.flatten = msg := by rw [← List.flatten_append, ← e]; exact hc
      obtain ⟨e1, e2⟩ := take_of_append _ _ _ hfl
      rw [Nat.zero_add, e1]
      exact hns pre suf e hp hs
  · rw [h2]
    have := cuts_fill (adj := adjU msg) (bs := bs) msg (fun b => by unfold adjU; split <;> omega) (msg.length + 1) 0
      (pre.map (·.UD)) last.UD (by
        rw [e, List.map_append] at h6
        rw [show cutsLoop (adjU msg) bs msg (msg.length + 1) 0 = cs from h4.symm, ← h6]; rfl)
      p.UD (List.mem_map.2 ⟨p, hp, rfl⟩)
    omega

/-- Beside C58_malformed_partial: the message of `C58_counterexample`, cut into three pieces none of which ends with a
high surrogate. -/
example : Room (submitT 8 []) {} ∧ (submitT 8 []).Alphabet.1 = .ucs2 ∧ (segTemplate (submitT 8 []) {}).UDBlockSize = 134 ∧
    (∀ u ∈ (units (List.replicate 132 (0x41 : UInt8))).getLast?, ¬ HighSurrogate u) ∧
    ∀ u ∈ (units (List.replicate 132 (0x41 : UInt8) ++ ([0xd8, 0x00] ++ List.replicate 132 0x41))).getLast?, ¬ HighSurrogate u := by
  have one : ∀ o : Option Nat, o = some 0x4141 → ∀ u ∈ o, ¬ HighSurrogate u := by
    rintro _ rfl u hu
    cases hu
    unfold HighSurrogate
    decide
  exact ⟨by decide +kernel, by decide +kernel, by decide +kernel, one _ (by decide +kernel), one _ (by decide +kernel)⟩

end Verif.Props
