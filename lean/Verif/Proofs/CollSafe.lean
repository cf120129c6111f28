import Verif.Proofs.CollClose
import Verif.Proofs.CollRun

/-! When `Collect` panics, in histories of arbitrary TPDUs. -/

namespace Verif.Proofs.Coll
open Verif.Model Verif.Model.Collector Verif.Spec Verif.Proofs

/-- Reassemblies exist, and those of supported TPDUs have the right size. -/
def Sized (s : State) : Prop := ∀ (k : Bytes) (p : Nat), s.pipes.lookup k = some p → ∃ pipe, s.heap[p]? = some pipe ∧
  ∀ m, k = keyOf m → pipe.segments.length = m.count

theorem sized_new (timeout handler : Bool) : Sized (New timeout handler) := by
  intro k p h; simp [New] at h

theorem sized_place {s : State} {key : Bytes} {p seq : Nat} (ptr : Ptr) (ke : Option Err) (n : Nat) (hs : Sized s) (pipe : Pipe)
    (hp : s.heap[p]? = some pipe) (hq : seq - 1 < pipe.segments.length) :
    ∃ s' o, place s ptr key ke n seq p = .ok (s', o) ∧ Sized s' := by
  have upd : ∀ pipe' : Pipe, pipe'.segments.length = pipe.segments.length → ∀ (k : Bytes) (q : Nat), s.pipes.lookup k = some q →
      ∃ pp, (s.heap.set p pipe')[q]? = some pp ∧ ∀ m, k = keyOf m → pp.segments.length = m.count := by
    intro pipe' hl k q hk
    obtain ⟨pp, h1, h2⟩ := hs k q hk
    by_cases e : p = q
    · subst e
      rw [hp] at h1; cases h1
      exact ⟨pipe', get_set.2 (.inl ⟨rfl, get_lt hp, rfl⟩), fun m hm => by rw [hl]; exact h2 m hm⟩
    · exact ⟨pp, get_set.2 (.inr ⟨e, h1⟩), h2⟩
  unfold place
  rw [idx_some hp]
  simp only [ok_bind]
  rw [if_pos hq]
  simp only [pure_ok]
  split
  · refine ⟨_, _, rfl, ?_⟩
    intro k q hk
    simp only at hk ⊢
    rw [lookup_delete] at hk
    split at hk
    · cases hk
    · exact upd _ (by simp) k q hk
  · split
    · exact ⟨_, _, rfl, fun k q hk => upd _ (by simp) k q hk⟩
    · exact ⟨_, _, rfl, fun k q hk => upd _ (by simp) k q hk⟩

theorem sized_placeNew {s : State} {key : Bytes} {seq n : Nat} (ptr : Ptr) (ke : Option Err) (hs : Sized s)
    (hn : ∀ m, key = keyOf m → n = m.count) (h1 : 1 ≤ seq) (h2 : seq ≤ n) :
    ∃ s' o, placeNew s ptr key ke n seq = .ok (s', o) ∧ Sized s' := by
  unfold placeNew
  refine sized_place ptr ke n ?_ ⟨none, List.replicate n none, 0⟩ (get_snoc.2 (.inl ⟨rfl, rfl⟩)) (by simp; omega)
  intro k q hk
  simp only at hk ⊢
  rw [lookup_set] at hk
  split at hk
  · rename_i e
    cases hk
    subst e
    refine ⟨_, get_snoc.2 (.inl ⟨rfl, rfl⟩), ?_⟩
    intro m hm
    simpa using hn m hm
  · obtain ⟨pp, g1, g2⟩ := hs k q hk
    exact ⟨pp, get_snoc.2 (.inr g1), g2⟩

/-- The call cannot place the segment: it is one of several of an unsupported type, and too few are expected by
the pending reassembly, which all unsupported TPDUs share. -/
def Misfit (s : State) (pdu : TPDU) : Prop :=
  s.closed = false ∧ ¬ Supported pdu ∧ ∃ n seq ref, Segment pdu n seq ref ∧
    ∃ p, (Pipes s).lookup [] = some p ∧ (deref s p).length < seq

theorem key_count {pdu : TPDU} {n ref : Nat} {m : Ident}
    (h : (pduKey pdu n ref).1 = keyOf m) : n = m.count := by
  by_cases hs : Supported pdu
  · rw [Key.pduKey_supported _ _ _ hs] at h
    have : keyOf ⟨pdu.SmsType, peer pdu, ref, n⟩ = keyOf m := h
    have := keyOf_inj this
    rw [← this]
  · have : (pduKey pdu n ref).1 = [] := by
      unfold pduKey
      simp only
      rw [if_neg (fun e => hs (.inl e)), if_neg (fun e => hs (.inr e))]
    rw [this] at h
    have := congrArg List.length h
    simp [keyOf, formatKey] at this

theorem collect_sized {s : State} (hs : Sized s) (pdu : TPDU) :
    (Misfit s pdu ∧ Collect s pdu = .error (.panic .index)) ∨
    (¬ Misfit s pdu ∧ ∃ s' o, Collect s pdu = .ok (s', o) ∧ Sized s') := by
  have sc : ∀ (c : Nat), Sized { s with calls := c } := fun _ => hs
  unfold Collect
  simp only
  by_cases hc : s.closed = true
  · rw [if_pos hc]
    right
    refine ⟨?_, _, _, rfl, sc _⟩
    rintro ⟨h, _⟩
    rw [hc] at h; cases h
  have hc' : s.closed = false := by simpa using hc
  rw [if_neg hc]
  cases hci : pdu.ConcatInfo with
  | none =>
    right
    refine ⟨?_, _, _, rfl, sc _⟩
    rintro ⟨_, _, n, seq, ref, hseg, _⟩
    rw [hseg.info] at hci; cases hci
  | some c =>
    simp only
    by_cases h2 : c.segments < 2
    · rw [if_pos h2]
      right
      refine ⟨?_, _, _, rfl, sc _⟩
      rintro ⟨_, _, n, seq, ref, hseg, _⟩
      have := hseg.info
      rw [hci] at this; cases this
      have := hseg.multi
      simp only at h2
      omega
    rw [if_neg h2]
    by_cases h3 : c.seqno < 1 ∨ c.seqno > c.segments
    · rw [if_pos h3]
      right
      refine ⟨?_, _, _, rfl, sc _⟩
      rintro ⟨_, _, n, seq, ref, hseg, _⟩
      have := hseg.info
      rw [hci] at this; cases this
      have := hseg.pos
      have := hseg.le
      simp only at h3
      omega
    rw [if_neg h3]
    have hseg : Segment pdu c.segments c.seqno c.mref := ⟨hci, by omega, by omega, by omega⟩
    have hkc : ∀ m, (pduKey pdu c.segments c.mref).1 = keyOf m → c.segments = m.count := fun m => key_count
    have hsup : Supported pdu → ∃ m, (pduKey pdu c.segments c.mref).1 = keyOf m := by
      intro h
      rw [Key.pduKey_supported _ _ _ h]
      exact ⟨⟨pdu.SmsType, peer pdu, c.mref, c.segments⟩, rfl⟩
    have hun : ¬ Supported pdu → (pduKey pdu c.segments c.mref).1 = [] := by
      intro h
      unfold pduKey
      simp only
      rw [if_neg (fun e => h (.inl e)), if_neg (fun e => h (.inr e))]
    generalize hkk : pduKey pdu c.segments c.mref = kk at *
    obtain ⟨key, ke⟩ := kk
    simp only at hkc hsup hun ⊢
    have mis : Misfit s pdu → ∃ p, s.pipes.lookup key = some p ∧ (deref s p).length < c.seqno := by
      rintro ⟨_, hns, n, seq, ref, hseg', p, hp1, hp2⟩
      have := hseg.info.symm.trans hseg'.info
      simp only [Option.some.injEq, UDH.Concat.mk.injEq] at this
      obtain ⟨_, rfl, _⟩ := this
      rw [hun hns]
      exact ⟨p, hp1, hp2⟩
    cases hl : s.pipes.lookup key with
    | none =>
      simp only
      right
      refine ⟨?_, sized_placeNew _ _ (sc _) hkc (by omega) (by omega)⟩
      intro hm
      obtain ⟨p, hp, _⟩ := mis hm
      rw [hl] at hp; cases hp
    | some p =>
      simp only
      obtain ⟨pipe, hp, hlen⟩ := hs key p hl
      rw [idx_some hp]
      simp only [ok_bind]
      have hd : deref s p = pipe.segments := by unfold deref; rw [hp]; rfl
      by_cases hlt : c.seqno - 1 < pipe.segments.length
      · right
        refine ⟨?_, ?_⟩
        · intro hm
          obtain ⟨p', hp', hlt'⟩ := mis hm
          rw [hl] at hp'; cases hp'
          rw [hd] at hlt'
          omega
        have hj : pipe.segments[c.seqno - 1]? = some pipe.segments[c.seqno - 1] := List.getElem?_eq_getElem hlt
        rw [idx_some hj]
        simp only [ok_bind]
        split
        · exact ⟨_, _, rfl, sc _⟩
        · split
          · exact sized_place _ _ _ (sc _) pipe hp hlt
          · split
            · exact sized_place (s := { s with calls := s.calls + 1, timers := _ }) _ _ _ hs pipe hp hlt
            · exact sized_placeNew (s := { s with calls := s.calls + 1, timers := _ }) _ _ hs hkc (by omega) (by omega)
      · left
        have hns : ¬ Supported pdu := by
          intro h
          obtain ⟨m, hm⟩ := hsup h
          have := hlen m hm
          have := hkc m hm
          omega
        refine ⟨⟨hc', hns, _, _, _, hseg, p, ?_, ?_⟩, ?_⟩
        · rw [← hun hns]; exact hl
        · rw [hd]; omega
        · have : idx pipe.segments ((c.seqno - 1 : Nat) : Int) = .error (.panic .index) := by
            unfold idx
            rw [if_pos (by omega), Int.toNat_natCast, List.getElem?_eq_none (by omega)]
            rfl
          rw [this]
          rfl

theorem step_sized {s s' : State} (hs : Sized s) {e : Event} {o : Output} (h : step s e = .ok (s', o)) : Sized s' := by
  cases e with
  | collect pdu =>
    have h : Collect s pdu = .ok (s', o) := h
    rcases collect_sized hs pdu with ⟨_, h1⟩ | ⟨_, s1, o1, h1, h2⟩
    · rw [h] at h1; cases h1
    · rw [h] at h1; cases h1; exact h2
  | fire i =>
    cases h
    unfold fire
    split
    · split <;> exact hs
    · exact hs
  | expire i =>
    cases h
    unfold expire
    split
    · split
      · intro k p hk
        simp only at hk ⊢
        split at hk
        · rw [lookup_delete] at hk
          split at hk
          · cases hk
          · exact hs k p hk
        · exact hs k p hk
      · exact hs
    · exact hs
  | handle i =>
    have h : (Except.ok (handle s i) : M _) = .ok (s', o) := h
    have h := congrArg Prod.fst (Except.ok.inj h)
    simp only at h
    subst h
    unfold handle
    split
    · split <;> exact hs
    · exact hs
  | close =>
    cases h
    unfold Close
    split <;> exact hs

theorem run_sized : ∀ (es : List Event) {s s' : State} {os : List Output}, Sized s → run s es = .ok (s', os) → Sized s' := by
  intro es
  induction es with
  | nil => intro s s' os hs h; cases h; exact hs
  | cons e es ih =>
    intro s s' os hs h
    unfold run at h
    obtain ⟨⟨s1, o⟩, h1, h⟩ := bind_eq_ok.1 h
    obtain ⟨⟨s2, os2⟩, h2, h⟩ := bind_eq_ok.1 h
    cases h
    exact ih (step_sized hs h1) h2

end Verif.Proofs.Coll
