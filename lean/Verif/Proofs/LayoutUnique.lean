import Verif.Proofs.Layout

/-! The layout determines the octets. -/

namespace Verif.Proofs
open Verif.Model Verif.Spec

theorem octetBits_len (p : List UInt8) : (octetBits p).length = 8 * p.length := by
  induction p with
  | nil => rfl
  | cons o p ih => simp [octetBits, bits] at ih ⊢; omega

theorem bits8_inj (a b : UInt8) (h : bits 8 a.toNat = bits 8 b.toNat) : a = b := by
  have key : ∀ n : Nat, n < 256 → n = ((bits 8 n).foldr (fun b acc => 2 * acc + b.toNat) 0) := by decide +kernel
  apply UInt8.toNat_inj.mp
  rw [key _ a.toNat_lt, key _ b.toNat_lt, h]

theorem octetBits_inj : ∀ (p q : List UInt8), octetBits p = octetBits q → p = q := by
  intro p
  induction p with
  | nil =>
    intro q h
    have := congrArg List.length h
    rw [octetBits_len, octetBits_len] at this
    exact (List.length_eq_zero_iff.1 (by simp only [List.length_nil] at this; omega)).symm
  | cons a p ih =>
    intro q h
    cases q with
    | nil =>
      have := congrArg List.length h
      rw [octetBits_len, octetBits_len] at this
      simp at this
    | cons b q =>
      have e : ∀ (x : UInt8) l, octetBits (x :: l) = bits 8 x.toNat ++ octetBits l := fun _ _ => rfl
      rw [e, e] at h
      have hl : (bits 8 a.toNat).length = (bits 8 b.toNat).length := by simp [bits]
      obtain ⟨h1, h2⟩ := List.append_inj h hl
      rw [bits8_inj a b h1, ih q h2]

/-- Octets that are some bits and fewer than 8 zeros. -/
theorem octets_unique (o o' : List UInt8) (bs : List Bool) (k k' : Nat) (hk : k < 8) (hk' : k' < 8)
    (h : octetBits o = bs ++ List.replicate k false) (h' : octetBits o' = bs ++ List.replicate k' false) : o = o' := by
  have l := congrArg List.length h
  have l' := congrArg List.length h'
  rw [octetBits_len] at l l'
  simp only [List.length_append, List.length_replicate] at l l'
  have : k = k' := by omega
  subst this
  exact octetBits_inj _ _ (h.trans h'.symm)

theorem nibbles_inj : ∀ (p q : List UInt8), p.flatMap nibbles = q.flatMap nibbles → p = q := by
  intro p
  induction p with
  | nil => intro q h; cases q with
    | nil => rfl
    | cons b q => simp [nibbles] at h
  | cons a p ih =>
    intro q h
    cases q with
    | nil => simp [nibbles] at h
    | cons b q =>
      simp only [List.flatMap_cons, nibbles, List.cons_append, List.nil_append, List.cons.injEq] at h
      have : a = b := UInt8.toNat_inj.mp (by omega)
      rw [this, ih q h.2.2]

theorem default_inj (g g' : List UInt8) (hs : Septets g) (hs' : Septets g')
    (h : g.map (fun s => Alphabet.locking 0 s.toNat) = g'.map (fun s => Alphabet.locking 0 s.toNat)) : g = g' := by
  have key : ∀ a : Nat, a < 128 → ∀ b : Nat, b < 128 → Alphabet.locking 0 a = Alphabet.locking 0 b → a = b := by decide +kernel
  induction g generalizing g' with
  | nil => cases g' with
    | nil => rfl
    | cons b g' => cases h
  | cons a g ih =>
    cases g' with
    | nil => cases h
    | cons b g' =>
      simp only [List.map_cons, List.cons.injEq] at h
      have : a = b := UInt8.toNat_inj.mp (key _ (hs a (by simp)) _ (hs' b (by simp)) h.1)
      rw [this, ih g' (fun s hs1 => hs s (by simp [hs1])) (fun s hs1 => hs' s (by simp [hs1])) h.2]

theorem addr_unique (a : Address) (p p' : List UInt8) (h : AddrWire a p) (h' : AddrWire a p') : p = p' := by
  obtain ⟨n, body, rfl, h⟩ := h
  obtain ⟨n', body', rfl, h'⟩ := h'
  split at h
  · rename_i ht
    rw [if_pos ht] at h'
    obtain ⟨g, hs, hg, hn, k, hk, hb⟩ := h
    obtain ⟨g', hs', hg', hn', k', hk', hb'⟩ := h'
    have := default_inj g g' hs hs' (hg.trans hg'.symm)
    subst this
    rw [octets_unique _ _ _ _ _ hk hk' hb hb', UInt8.toNat_inj.mp (hn.trans hn'.symm)]
  · rename_i ht
    rw [if_neg ht] at h'
    rw [nibbles_inj _ _ (h.2.trans h'.2.symm), UInt8.toNat_inj.mp (h.1.trans h'.1.symm)]

theorem relative_unique (d : Int) (c c' : UInt8) (h : RelativeWire d c) (h' : RelativeWire d c') : c = c' := by
  have h1 := h.2 c'.toNat c'.toNat_lt h'.1
  have h2 := h'.2 c.toNat c.toNat_lt h.1
  have e : relativeMinutes c.toNat = relativeMinutes c'.toNat := by omega
  apply UInt8.toNat_inj.mp
  have l1 := c.toNat_lt
  have l2 := c'.toNat_lt
  unfold relativeMinutes at e
  generalize c.toNat = a at *
  generalize c'.toNat = b at *
  split at e
  · split at e
    · omega
    split at e
    · omega
    split at e <;> omega
  split at e
  · split at e
    · omega
    split at e
    · omega
    split at e <;> omega
  split at e
  · split at e
    · omega
    split at e
    · omega
    split at e <;> omega
  · split at e
    · omega
    split at e
    · omega
    split at e <;> omega

theorem vp_unique (v : ValidityPeriod) (p p' : List UInt8) (h : VpWire v p) (h' : VpWire v p') : p = p' := by
  have d : ∀ a b : UInt8, a ≠ b → v.Format = a → v.Format = b → False := fun a b n x y => n (x.symm.trans y)
  unfold VpWire at h h'
  rcases h with ⟨f, rfl⟩ | ⟨f, c, hc, rfl⟩ | ⟨f, ht⟩ | ⟨f, e, rfl⟩ | ⟨f, e, c, hc, rfl⟩ | ⟨f, e, rfl⟩ | ⟨f, e, rfl⟩ <;>
  rcases h' with ⟨f', rfl⟩ | ⟨f', c', hc', rfl⟩ | ⟨f', ht'⟩ | ⟨f', e', rfl⟩ | ⟨f', e', c', hc', rfl⟩ | ⟨f', e', rfl⟩ | ⟨f', e', rfl⟩ <;>
  first
  | rfl
  | (exfalso; exact d _ _ (by decide) f f')
  | (exfalso; omega)
  | (rw [relative_unique _ _ _ hc hc'])
  | exact ht.trans ht'.symm

theorem ud_unique (t : TPDU) (p p' : List UInt8) (h : UdWire t p) (h' : UdWire t p') : p = p' := by
  obtain ⟨n, o, rfl, h⟩ := h
  obtain ⟨n', o', rfl, h'⟩ := h'
  split at h
  · rename_i ht
    rw [if_pos ht] at h'
    obtain ⟨f, hf, k, hk, hm, hn, hb⟩ := h
    obtain ⟨f', hf', k', hk', hm', hn', hb'⟩ := h'
    have : f = f' := by omega
    subst this
    rw [octets_unique _ _ _ _ _ hk hk' hb hb', UInt8.toNat_inj.mp (hn.trans hn'.symm)]
  · rename_i ht
    rw [if_neg ht] at h'
    obtain ⟨hn, rfl⟩ := h
    obtain ⟨hn', rfl⟩ := h'
    rw [UInt8.toNat_inj.mp (hn.trans hn'.symm)]

theorem opt_unique (t : TPDU) (p p' : List UInt8) (h : OptWire t p) (h' : OptWire t p') : p = p' := by
  obtain ⟨ud, h, rfl⟩ := h
  obtain ⟨ud', h', rfl⟩ := h'
  split at h
  · rename_i hb
    rw [if_pos hb] at h'
    rw [ud_unique t _ _ h h']
  · rename_i hb
    rw [if_neg hb] at h'
    rw [h, h']

theorem wire_unique (t : TPDU) (p p' : List UInt8) (h : Wire t p) (h' : Wire t p') : p = p' := by
  unfold Wire at h h'
  rcases h with ⟨d, m, x⟩ | ⟨d, m, x⟩ | ⟨d, m, x⟩ | ⟨d, m, x⟩ | ⟨d, m, x⟩ | ⟨d, m, x⟩ <;>
  rcases h' with ⟨d', m', x'⟩ | ⟨d', m', x'⟩ | ⟨d', m', x'⟩ | ⟨d', m', x'⟩ | ⟨d', m', x'⟩ | ⟨d', m', x'⟩ <;>
  first
  | (exfalso; omega)
  | skip
  · obtain ⟨a, b, c, h1, h2, h3, rfl⟩ := x
    obtain ⟨a', b', c', h1', h2', h3', rfl⟩ := x'
    rw [addr_unique _ _ _ h1 h1', h2.trans h2'.symm, ud_unique _ _ _ h3 h3']
  · obtain ⟨a, h1, rfl⟩ := x
    obtain ⟨a', h1', rfl⟩ := x'
    rw [opt_unique _ _ _ h1 h1']
  · obtain ⟨a, b, c, h1, h2, h3, rfl⟩ := x
    obtain ⟨a', b', c', h1', h2', h3', rfl⟩ := x'
    rw [addr_unique _ _ _ h1 h1', vp_unique _ _ _ h2 h2', ud_unique _ _ _ h3 h3']
  · obtain ⟨a, b, h1, h2, rfl⟩ := x
    obtain ⟨a', b', h1', h2', rfl⟩ := x'
    rw [h1.trans h1'.symm, opt_unique _ _ _ h2 h2']
  · obtain ⟨a, b, c, e, h1, h2, h3, h4, rfl⟩ := x
    obtain ⟨a', b', c', e', h1', h2', h3', h4', rfl⟩ := x'
    have : e = e' := by
      split at h4
      · rename_i hz
        rw [if_pos hz] at h4'
        rw [h4, h4']
      · rename_i hz
        rw [if_neg hz] at h4'
        obtain ⟨o, ho, rfl⟩ := h4
        obtain ⟨o', ho', rfl⟩ := h4'
        rw [opt_unique _ _ _ ho ho']
    rw [addr_unique _ _ _ h1 h1', h2.trans h2'.symm, h3.trans h3'.symm, this]
  · obtain ⟨a, b, h1, h2, rfl⟩ := x
    obtain ⟨a', b', h1', h2', rfl⟩ := x'
    rw [addr_unique _ _ _ h1 h1', UInt8.toNat_inj.mp (h2.trans h2'.symm)]

end Verif.Proofs
