import Verif.Spec.Concat
import Verif.Props.UserData

namespace Verif.Props
open Model Spec Proofs

theorem concat8_iff (udh : UDH) (c : UDH.Concat) :
    udh.ConcatInfo8 = some c ↔ ∃ e, LastOf udh 0 e ∧ Says e c.segments c.seqno c.mref := by
  unfold UDH.ConcatInfo8
  constructor
  · intro h
    split at h
    · rename_i id a b d he
      obtain ⟨hid, w⟩ := (C15_ie_some _ _ _).1 he
      refine ⟨_, ⟨hid, w⟩, ?_⟩
      cases h
      simp only at hid
      subst hid
      exact .short a b d
    · cases h
  · rintro ⟨e, ⟨hid, w⟩, hs⟩
    rw [(C15_ie_some _ _ _).2 ⟨hid, w⟩]
    obtain ⟨n, s, r⟩ := c
    cases hs with
    | short => rfl
    | long => exact absurd hid (by simp)

theorem concat16_iff (udh : UDH) (c : UDH.Concat) :
    udh.ConcatInfo16 = some c ↔ ∃ e, LastOf udh 8 e ∧ Says e c.segments c.seqno c.mref := by
  unfold UDH.ConcatInfo16
  constructor
  · intro h
    split at h
    · rename_i id a b d f he
      obtain ⟨hid, w⟩ := (C15_ie_some _ _ _).1 he
      refine ⟨_, ⟨hid, w⟩, ?_⟩
      cases h
      simp only at hid
      subst hid
      have := Says.long a b d f
      simpa [Ucs2.be16, Nat.mul_comm] using this
    · cases h
  · rintro ⟨e, ⟨hid, w⟩, hs⟩
    rw [(C15_ie_some _ _ _).2 ⟨hid, w⟩]
    obtain ⟨n, s, r⟩ := c
    cases hs with
    | short => exact absurd hid (by simp)
    | long => simp [Ucs2.be16, Nat.mul_comm]

/-- C83: what `ConcatInfo` reports, for every header: what the last element 0 says, and if there is none or it says
nothing (because of its length), what the last element 8 says. -/
theorem C83_exact (udh : UDH) (n seq ref : Nat) :
    udh.ConcatInfo = some ⟨n, seq, ref⟩ ↔
      (∃ e, LastOf udh 0 e ∧ Says e n seq ref) ∨
      ((∀ e n' seq' ref', LastOf udh 0 e → ¬ Says e n' seq' ref') ∧ ∃ e, LastOf udh 8 e ∧ Says e n seq ref) := by
  unfold UDH.ConcatInfo
  rw [← concat8_iff udh ⟨n, seq, ref⟩, ← concat16_iff udh ⟨n, seq, ref⟩]
  have h8 : (∀ e n' seq' ref', LastOf udh 0 e → ¬ Says e n' seq' ref') ↔ udh.ConcatInfo8 = none := by
    constructor
    · intro h
      cases hc : udh.ConcatInfo8 with
      | none => rfl
      | some c =>
        obtain ⟨e, hl, hs⟩ := (concat8_iff _ _).1 hc
        exact absurd hs (h _ _ _ _ hl)
    · intro h e n' s' r' hl hs
      have := (concat8_iff udh ⟨n', s', r'⟩).2 ⟨e, hl, hs⟩
      rw [h] at this
      cases this
  rw [h8]
  cases udh with
  | nil => simp [UDH.ConcatInfo8, UDH.ConcatInfo16, UDH.IE]
  | cons x xs =>
    simp only [List.length_cons, Nat.add_eq_zero_iff, Nat.succ_ne_self, and_false, if_false]
    cases hc : UDH.ConcatInfo8 (x :: xs) <;> simp

/-- C83, for the headers that the standard allows a sender to write: every concatenation element is valid, and there are
not both kinds.  (Missing, because false: `C83_counterexample_kinds`, `_ignored`, `_hidden`.) -/
theorem C83_standard_partial (udh : UDH) (n seq ref : Nat)
    (hv : ∀ e ∈ udh, e.ID = 0 ∨ e.ID = 8 → ∃ n' seq' ref', Says e n' seq' ref' ∧ Valid n' seq')
    (hk : (∀ e ∈ udh, e.ID ≠ 0) ∨ (∀ e ∈ udh, e.ID ≠ 8)) :
    udh.ConcatInfo = some ⟨n, seq, ref⟩ ↔ Part udh n seq ref := by
  have hid : ∀ {e n' s' r'}, Says e n' s' r' → e.ID = 0 ∨ e.ID = 8 := by
    intro e n' s' r' h
    cases h
    · exact .inl rfl
    · exact .inr rfl
  have hun : ∀ {e n1 s1 r1 n2 s2 r2}, Says e n1 s1 r1 → Says e n2 s2 r2 → n1 = n2 ∧ s1 = s2 := by
    intro e n1 s1 r1 n2 s2 r2 h1 h2
    cases h1 <;> cases h2 <;> exact ⟨rfl, rfl⟩
  rw [C83_exact]
  constructor
  · rintro (⟨e, ⟨hi, a, b, he, hn⟩, hs⟩ | ⟨-, e, ⟨hi, a, b, he, hn⟩, hs⟩)
    · obtain ⟨n', s', r', hs', hv'⟩ := hv e (by simp [he]) (hid hs)
      obtain ⟨rfl, rfl⟩ := hun hs hs'
      refine ⟨a, e, b, he, hs, hv', fun x hx n1 s1 r1 h1 => ?_⟩
      rcases hid h1 with h | h
      · exact absurd h (hn x hx)
      · rcases hk with hk | hk
        · exact absurd hi (hk e (by simp [he]))
        · exact absurd h (hk x (by simp [he, hx]))
    · obtain ⟨n', s', r', hs', hv'⟩ := hv e (by simp [he]) (hid hs)
      obtain ⟨rfl, rfl⟩ := hun hs hs'
      refine ⟨a, e, b, he, hs, hv', fun x hx n1 s1 r1 h1 => ?_⟩
      rcases hid h1 with h | h
      · rcases hk with hk | hk
        · exact absurd h (hk x (by simp [he, hx]))
        · exact absurd hi (hk e (by simp [he]))
      · exact absurd h (hn x hx)
  · rintro ⟨a, e, b, he, hs, hva, hb⟩
    have hlast : ∀ x ∈ b, x.ID ≠ 0 ∧ x.ID ≠ 8 := by
      intro x hx
      have : ¬ (x.ID = 0 ∨ x.ID = 8) := by
        intro h
        obtain ⟨n', s', r', h1, h2⟩ := hv x (by simp [he, hx]) h
        exact hb x hx _ _ _ h1 h2
      exact ⟨fun h => this (.inl h), fun h => this (.inr h)⟩
    rcases hid hs with h | h
    · exact .inl ⟨e, ⟨h, a, b, he, fun x hx => (hlast x hx).1⟩, hs⟩
    · refine .inr ⟨?_, e, ⟨h, a, b, he, fun x hx => (hlast x hx).2⟩, hs⟩
      rintro e' n' s' r' ⟨hi, a', b', he', -⟩ -
      rcases hk with hk | hk
      · exact hk e' (by simp [he']) hi
      · exact hk e (by simp [he]) h

-- a header as a sender writes it, in which the last of two elements counts
example : UDH.ConcatInfo [⟨0x24, [1]⟩, ⟨0, [5, 3, 2]⟩, ⟨0, [7, 4, 1]⟩] = some ⟨4, 1, 7⟩ ∧
    UDH.ConcatInfo [⟨8, [1, 2, 3, 2]⟩] = some ⟨3, 2, 258⟩ := by decide

/-- C83 is false if a header has elements of both kinds: the last one, a two octet reference, should count. -/
theorem C83_counterexample_kinds :
    UDH.ConcatInfo [⟨0, [5, 3, 2]⟩, ⟨8, [1, 2, 4, 1]⟩] = some ⟨3, 2, 5⟩ ∧
    Part [⟨0, [5, 3, 2]⟩, ⟨8, [1, 2, 4, 1]⟩] 4 1 258 :=
  ⟨by decide, [⟨0, [5, 3, 2]⟩], _, [], rfl, .long 1 2 4 1, ⟨by decide, by decide⟩, by simp⟩

/-- C83 is false of elements that are to be ignored: they are reported, and hide valid ones. -/
theorem C83_counterexample_ignored :
    UDH.ConcatInfo [⟨0, [5, 3, 4]⟩] = some ⟨3, 4, 5⟩ ∧ (∀ n seq ref, ¬ Part [⟨0, [5, 3, 4]⟩] n seq ref) ∧
    UDH.ConcatInfo [⟨0, [5, 3, 2]⟩, ⟨0, [5, 0, 0]⟩] = some ⟨0, 0, 5⟩ ∧ Part [⟨0, [5, 3, 2]⟩, ⟨0, [5, 0, 0]⟩] 3 2 5 := by
  refine ⟨by decide, ?_, by decide, [], _, [⟨0, [5, 0, 0]⟩], rfl, .short 5 3 2, ⟨by decide, by decide⟩, ?_⟩
  · rintro n seq ref ⟨a, e, b, he, hs, hv, -⟩
    cases a with
    | nil =>
      simp only [List.nil_append, List.cons.injEq] at he
      obtain ⟨rfl, -⟩ := he
      cases hs
      exact absurd hv.2 (by decide)
    | cons _ a => simp at he
  · intro x hx n seq ref hs hv
    simp only [List.mem_singleton] at hx
    subst hx
    cases hs
    exact absurd hv.1 (by decide)

/-- C83 is false of an element 0 of a wrong length: it says nothing, but hides a valid one before it. -/
theorem C83_counterexample_hidden :
    UDH.ConcatInfo [⟨0, [5, 3, 2]⟩, ⟨0, [5]⟩] = none ∧ Part [⟨0, [5, 3, 2]⟩, ⟨0, [5]⟩] 3 2 5 := by
  refine ⟨by decide, [], _, [⟨0, [5]⟩], rfl, .short 5 3 2, ⟨by decide, by decide⟩, ?_⟩
  intro x hx n seq ref hs
  simp only [List.mem_singleton] at hx
  subst hx
  cases hs

end Verif.Props
