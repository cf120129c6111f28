import Verif.Spec.Numbers
import Verif.Proofs.EncodeSms

/-! Helper lemmas of C123. -/

namespace Verif.Proofs.Numbers
open Verif.Model Verif.Spec Verif.Proofs
open Verif.Model.Sms (EncoderOption Encoder EncResult NewEncoder newCounter)

/-- The counter of a new encoder after `n` calls of `Count`. -/
abbrev at_ (n : Nat) : Counter := advance n newCounter

theorem byteOf_at (n : Nat) (k : Nat) : byteOf ((at_ n).vals ((at_ n).pos + k)) = UInt8.ofNat (n + k + 1) := by
  unfold at_ advance newCounter byteOf
  simp only
  apply UInt8.toNat_inj.mp
  simp
  omega

abbrev cfgAt (m c : Nat) : SegCfg := { cr := some (at_ c), mr := some (at_ m) }

/-- `Segment` with counters advanced, told by `Segment` with new ones. -/
theorem segment_numbers (t : TPDU) (d : Bytes) (m c : Nat) :
    (match t.Segment d (cfgAt 0 0) with
      | .ok r => ∃ r', t.Segment d (cfgAt m c) = .ok r' ∧ r'.pdus = renumbered m c r.pdus ∧
        r'.mr = some (at_ (m + r.pdus.length)) ∧ r'.cr = some (at_ (if r.pdus.length < 2 then c else c + 1))
      | .error f => t.Segment d (cfgAt m c) = .error f) := by
  by_cases hne : d = []
  · subst hne
    exact ⟨_, rfl, rfl, rfl, rfl⟩
  by_cases hbig : (d.length : Int) ≤ t.UDBlockSize
  · have hl : ¬ d.length = 0 := by simpa using hne
    have key : ∀ m c, t.Segment d (cfgAt m c) = .ok ⟨[{ t with UD := d, MR := UInt8.ofNat (m + 1) }], some (at_ c), some (at_ (m + 1))⟩ := by
      intro m c
      unfold TPDU.Segment
      rw [if_neg hl]
      simp only
      rw [if_pos hbig]
      simp only [setMR, Counter.count]
      rw [show byteOf ((at_ m).vals (at_ m).pos) = UInt8.ofNat (m + 1) from byteOf_at m 0]
      simp [at_, advance, newCounter, Nat.add_comm]
    simp only [key]
    exact ⟨_, rfl, by simp [renumbered], rfl, rfl⟩
  · have s0 := segment_chunks t d (cfgAt 0 0) hne hbig
    have s1 := segment_chunks t d (cfgAt m c) hne hbig
    have ht : segTemplate t (cfgAt m c) = segTemplate t (cfgAt 0 0) := rfl
    rw [ht] at s1
    cases hc : chunk d t.Alphabet.1 (segTemplate t (cfgAt 0 0)).UDBlockSize with
    | error f => rw [s0.2 f hc]; exact s1.2 f hc
    | ok cs =>
      obtain ⟨r, e1, e2, e3, e4⟩ := s0.1 cs hc
      obtain ⟨r', f1, f2, f3, f4⟩ := s1.1 cs hc
      have hle := segTemplate_le t (cfgAt 0 0)
      have h2 := chunk_two _ _ _ _ hne hc (by omega)
      rw [e1]
      refine ⟨r', f1, ?_, ?_, ?_⟩
      · rw [f2, e2]
        unfold renumbered
        simp only [List.length_mapIdx]
        apply List.ext_getElem
        · simp
        · intro k h3 h4
          simp only [List.getElem_mapIdx, segPdu, nthMR, byteOf_at]
          rw [if_neg (by omega)]
          simp only [List.dropLast_concat, List.getLast?_concat, Option.map_some, Option.toList_some]
          congr 1
          congr 1
          simp only [SegCfg.ief, newInfoElement, withRef, Bool.false_eq_true, if_false, List.set_cons_zero]
          rw [show byteOf ((at_ c).vals (at_ c).pos) = UInt8.ofNat (c + 1) from byteOf_at c 0]
      · rw [f4, e2, List.length_mapIdx]
        simp [at_, advance, newCounter, Nat.add_comm]
      · rw [f3, e2, List.length_mapIdx, if_neg (by omega)]
        simp [at_, advance, newCounter, Nat.add_comm]

/-- An encoder made with the options whose counters have been called `m` and `c` times. -/
abbrev after (os : List EncoderOption) (m c : Nat) : Encoder :=
  { NewEncoder os with MsgCount := at_ m, ConcatRef := at_ c }

theorem apply_after (os : List EncoderOption) : ∀ (e : Encoder) (a b : Counter),
    os.foldl Encoder.apply { e with MsgCount := a, ConcatRef := b } =
      { os.foldl Encoder.apply e with MsgCount := a, ConcatRef := b } := by
  induction os with
  | nil => intro e a b; rfl
  | cons o os ih =>
    intro e a b
    rw [List.foldl_cons, List.foldl_cons, ← ih]
    congr 1
    cases o with
    | template t => rfl
    | templateOption o =>
      simp only [Encoder.apply]
      cases o.apply e.pdu <;> rfl
    | charsets o => rfl

theorem new_after (os : List EncoderOption) : NewEncoder os = after os 0 0 := by
  have := apply_counters os { MsgCount := newCounter, ConcatRef := newCounter }
  have h1 : (NewEncoder os).MsgCount = newCounter := this.1
  have h2 : (NewEncoder os).ConcatRef = newCounter := this.2
  show NewEncoder os = { NewEncoder os with MsgCount := newCounter, ConcatRef := newCounter }
  revert h1 h2
  generalize NewEncoder os = e
  intro h1 h2
  cases e
  cases h1
  cases h2
  rfl

/-- The counterpart of `segment_numbers`. -/
def Renumbers (m c : Nat) (x y : M EncResult) : Prop :=
  match x with
  | .ok r => y = .ok ⟨renumbered m c r.pdus, at_ (m + r.pdus.length), at_ (if r.pdus.length < 2 then c else c + 1)⟩
  | .error f => y = .error f

theorem segment_renumbers (e : Encoder) (t : TPDU) (d : Bytes) (m c : Nat) :
    Renumbers m c (Encoder.segment { e with MsgCount := at_ 0, ConcatRef := at_ 0 } t d)
      (Encoder.segment { e with MsgCount := at_ m, ConcatRef := at_ c } t d) := by
  have h := segment_numbers t d m c
  unfold Encoder.segment
  unfold Renumbers
  simp only
  cases hs : t.Segment d (cfgAt 0 0) with
  | error f =>
    rw [hs] at h
    simp only at h
    rw [h]; rfl
  | ok r =>
    rw [hs] at h
    obtain ⟨r', h1, h2, h3, h4⟩ := h
    rw [h1]
    show (Except.ok (⟨r'.pdus, _, _⟩ : EncResult) : M EncResult) = _
    rw [h2, h3, h4]
    rfl

theorem encode_renumbers (os os' : List EncoderOption) (msg : Bytes) (m c : Nat) :
    Renumbers m c ((NewEncoder os).Encode msg os') ((after os m c).Encode msg os') := by
  rw [show (NewEncoder os).Encode msg os' = (after os 0 0).Encode msg os' from by rw [← new_after]]
  unfold Encoder.Encode
  simp only [after, apply_after]
  split
  · exact segment_renumbers _ _ _ m c
  · split
    · rfl
    · rfl
    · exact segment_renumbers _ _ _ m c

end Verif.Proofs.Numbers
