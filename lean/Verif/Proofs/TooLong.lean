import Verif.Spec.TooLong
import Verif.Proofs.CollArr
import Verif.Proofs.Fresh

/-! Helper lemmas of C125. -/

namespace Verif.Proofs.TooLong
open Verif.Model Verif.Model.Collector Verif.Spec Verif.Proofs Verif.Proofs.Coll
open Verif.Spec.Reassembly (Parts Input Result)

theorem run_two {s s1 s2 : State} {es es' : List Event} {os os' : List Output} (h : run s es = .ok (s1, os)) (h' : run s1 es' = .ok (s2, os')) :
    run s (es ++ es') = .ok (s2, os ++ os') := by
  induction es generalizing s os with
  | nil => cases h; exact h'
  | cons e es ih =>
    rw [run] at h
    obtain ⟨⟨s3, o⟩, h1, h⟩ := bind_eq_ok.1 h
    obtain ⟨⟨s4, os1⟩, h2, h⟩ := bind_eq_ok.1 h
    cases h
    rw [List.cons_append, run, h1, ok_bind]
    simp only
    rw [ih h2]
    rfl

theorem no_close (l : List TPDU) : Event.close ∉ l.map Event.collect := by
  intro h
  obtain ⟨p, _, h⟩ := List.mem_map.1 h
  cases h

/-- All of a message. -/
theorem whole {s : State} (hi : Inv s) (hc : s.closed = false) {m : Ident} (hp : s.pipes.lookup (keyOf m) = none) {segs : List TPDU}
    (hm : SegmentsOf m segs) :
    ∃ s' os', run s (segs.map .collect) = .ok (s', os') ∧
      os'.map result = List.replicate (m.count - 1) (.returned [] none) ++ [.returned (segs.map some) none] ∧
      Inv s' ∧ s'.closed = false ∧ s'.pipes.lookup (keyOf m) = none := by
  have hall : AllOf m segs := by
    intro pdu hpdu
    obtain ⟨j, _, h2⟩ := segs_find hm hpdu
    exact ⟨j + 1, segOf_some.1 h2⟩
  have hf : ∀ e ∈ segs.map Event.collect, FineEvent e := by
    intro e he
    obtain ⟨pdu, hpdu, rfl⟩ := List.mem_map.1 he
    exact segmentOf_fine (hall pdu hpdu).choose_spec
  obtain ⟨s', os', h1, h2⟩ := watch_run m _ hi hf
  obtain ⟨s'', os'', h1', hi', _⟩ := run_ok _ hi hf
  rw [h1] at h1'; cases h1'
  obtain ⟨w1, w2⟩ := watch_all m segs hall h1
  rw [w1, w2] at h2
  obtain ⟨r1, r2, r3⟩ := run_perm s.timeout s.handler m (view (keyOf m) s) hc (view_pending_none hp) hm (List.Perm.refl _)
  rw [h2] at r1 r2 r3
  exact ⟨s', os', h1, r1, hi', ((Fresh.run_keeps _ _ _ h1).2.1 (no_close segs)).trans hc, view_idle hi' r2⟩

/-- TPDUs with impossible numbers. -/
theorem refused (l : List TPDU) (c ref : Nat) (h2 : 2 ≤ c) (hl : ∀ p ∈ l, Supported p ∧ ∃ seq, p.ConcatInfo = some ⟨c, seq, ref⟩ ∧ (seq = 0 ∨ c < seq)) :
    ∀ {s : State}, Inv s → s.closed = false →
    ∃ s' os', run s (l.map .collect) = .ok (s', os') ∧
      os'.map result = List.replicate l.length (.returned [] (some .reassemblyInconsistency)) ∧
      Inv s' ∧ s'.closed = false ∧ s'.pipes = s.pipes := by
  induction l with
  | nil => intro s hi hc; exact ⟨s, [], rfl, rfl, hi, hc, rfl⟩
  | cons p l ih =>
    intro s hi hc
    obtain ⟨hs, seq, hci, hseq⟩ := hl p (by simp)
    have hstep : step s (.collect p) = .ok ({ s with calls := s.calls + 1 }, .returned [] (some .reassemblyInconsistency)) := by
      show Collect s p = _
      unfold Collect
      simp only [hc, hci, Bool.false_eq_true, if_false]
      rw [if_neg (by omega), if_pos (by omega)]
    obtain ⟨s1, o1, h1, hi1, _⟩ := step_ok (e := .collect p) hi (fun _ => hs)
    rw [hstep] at h1
    cases h1
    obtain ⟨s2, os2, g1, g2, g3, g4, g5⟩ := ih (fun q hq => hl q (by simp [hq])) hi1 hc
    refine ⟨s2, .returned [] (some .reassemblyInconsistency) :: os2, ?_, ?_, g3, g4, g5⟩
    · rw [List.map_cons, run, hstep, ok_bind]
      simp only
      rw [g1]
      rfl
    · rw [List.map_cons, g2, List.length_cons, List.replicate_succ]
      rfl

/-- TPDUs that say they are all of a message. -/
theorem singly (l : List TPDU) (c ref : Nat) (h2 : c < 2) (hl : ∀ p ∈ l, ∃ seq, p.ConcatInfo = some ⟨c, seq, ref⟩) :
    ∀ {s : State}, s.closed = false →
    ∃ s' os', run s (l.map .collect) = .ok (s', os') ∧ os'.map result = l.map fun p => .returned [some p] none := by
  induction l with
  | nil => intro s hc; exact ⟨s, [], rfl, rfl⟩
  | cons p l ih =>
    intro s hc
    obtain ⟨seq, hci⟩ := hl p (by simp)
    have hstep : step s (.collect p) = .ok ({ s with calls := s.calls + 1 }, .returned [some ⟨s.calls, p⟩] none) := by
      show Collect s p = _
      unfold Collect
      simp only [hc, hci, Bool.false_eq_true, if_false]
      rw [if_pos h2]
    obtain ⟨s2, os2, g1, g2⟩ := ih (fun q hq => hl q (by simp [hq])) (s := { s with calls := s.calls + 1 }) hc
    refine ⟨s2, .returned [some ⟨s.calls, p⟩] none :: os2, ?_, ?_⟩
    · rw [List.map_cons, run, hstep, ok_bind]
      simp only
      rw [g1]
      rfl
    · rw [List.map_cons, g2, List.map_cons]
      rfl

/-- The numbers of the TPDUs as a receiver sees them. -/
structure Seen (m : Ident) (l : List TPDU) : Prop where
  count : l.length % 256 = m.count
  seg : ∀ (k : Nat) (p : TPDU), l[k]? = some p → p.ConcatInfo = some ⟨m.count, (k + 1) % 256, m.ref⟩ ∧ Supported p ∧ p.SmsType = m.type ∧ peer p = m.peer

theorem answers (m : Ident) (h2 : 2 ≤ m.count) : ∀ (n : Nat) (l : List TPDU), l.length ≤ n → l ≠ [] → Seen m l → ∀ {s : State}, Inv s → s.closed = false →
    s.pipes.lookup (keyOf m) = none →
    ∃ s' os', run s (l.map .collect) = .ok (s', os') ∧ os'.map result = (List.range l.length).map (answerTo l) := by
  intro n
  induction n with
  | zero => intro l hn hne; exact absurd (List.length_eq_zero_iff.1 (by omega)) hne
  | succ n ih =>
    intro l hn hne hl s hi hc hp
    have hc256 : m.count < 256 := by rw [← hl.count]; exact Nat.mod_lt _ (by decide)
    have hcl : m.count ≤ l.length := by rw [← hl.count]; exact Nat.mod_le _ _
    -- the first of the message
    have hA : SegmentsOf m (l.take m.count) := by
      refine ⟨by simp; omega, h2, ?_⟩
      intro j p hj
      have hjc : j < m.count := by
        have := (List.getElem?_eq_some_iff.1 hj).1
        simp at this; omega
      rw [List.getElem?_take_of_lt hjc] at hj
      obtain ⟨a, b, c, d⟩ := hl.seg j p hj
      rw [Nat.mod_eq_of_lt (by omega)] at a
      exact ⟨⟨a, h2, by omega, by omega⟩, b, c, d⟩
    obtain ⟨s1, os1, a1, a2, a3, a4, a5⟩ := whole hi hc hp hA
    have ansA : ∀ k, k < m.count → answerTo l k = if k + 1 < m.count then .returned [] none else .returned ((l.take m.count).map some) none := by
      intro k hk
      unfold answerTo
      simp only [hl.count]
      rw [Nat.mod_eq_of_lt (show k + 1 < 256 by omega), if_neg (by omega), if_neg (by omega)]
      split
      · rfl
      · rw [show k + 1 - m.count = 0 by omega, List.drop_zero]
    have outA : os1.map result = (List.range m.count).map (answerTo l) := by
      rw [a2]
      apply List.ext_getElem
      · simp; omega
      · intro k h3 h4
        have hk : k < m.count := by simpa using h4
        simp only [List.getElem_map, List.getElem_range, ansA k hk]
        by_cases hx : k + 1 < m.count
        · rw [if_pos hx, List.getElem_append_left (by simp; omega), List.getElem_replicate]
        · rw [if_neg hx, List.getElem_append_right (by simp; omega)]
          simp
    by_cases hlt : l.length < 256
    · have hlen : l.length = m.count := by rw [← hl.count, Nat.mod_eq_of_lt hlt]
      rw [List.take_of_length_le (by omega)] at a1
      exact ⟨s1, os1, a1, by rw [outA, hlen]⟩
    · -- those up to the 256th
      have hB : ∀ p ∈ (l.take 256).drop m.count, Supported p ∧ ∃ seq, p.ConcatInfo = some ⟨m.count, seq, m.ref⟩ ∧ (seq = 0 ∨ m.count < seq) := by
        intro p hpm
        obtain ⟨j, hj, hjp⟩ := List.getElem_of_mem hpm
        have hj' : m.count + j < 256 := by simp at hj; omega
        have hg : l[m.count + j]? = some p := by
          rw [List.getElem_drop, List.getElem_take] at hjp
          rw [List.getElem?_eq_some_iff]
          exact ⟨_, hjp⟩
        obtain ⟨a, b, _, _⟩ := hl.seg _ p hg
        refine ⟨b, _, a, ?_⟩
        by_cases h255 : m.count + j + 1 = 256
        · left; rw [h255]
        · right; rw [Nat.mod_eq_of_lt (by omega)]; omega
      obtain ⟨s2, os2, b1, b2, b3, b4, b5⟩ := refused _ m.count m.ref h2 hB a3 a4
      have outB : os2.map result = (List.range (256 - m.count)).map (fun k => answerTo l (m.count + k)) := by
        rw [b2]
        apply List.ext_getElem
        · simp; omega
        · intro k h3 h4
          have hk : k < 256 - m.count := by simpa using h4
          simp only [List.getElem_map, List.getElem_range, List.getElem_replicate]
          unfold answerTo
          simp only [hl.count]
          rw [if_neg (by omega), if_pos]
          by_cases h255 : m.count + k + 1 = 256
          · left; rw [h255]
          · right; rw [Nat.mod_eq_of_lt (by omega)]; omega
      -- the rest
      have hC : Seen m (l.drop 256) := by
        refine ⟨?_, ?_⟩
        · rw [List.length_drop, ← hl.count]
          omega
        · intro k p hk
          rw [List.getElem?_drop] at hk
          obtain ⟨a, b, c, d⟩ := hl.seg _ p hk
          rw [show 256 + k + 1 = (k + 1) + 256 by omega, Nat.add_mod_right] at a
          exact ⟨a, b, c, d⟩
      have hCne : l.drop 256 ≠ [] := by
        intro h
        have h0 := hC.count
        rw [h] at h0
        simp at h0
        omega
      obtain ⟨s3, os3, c1, c2⟩ := ih (l.drop 256) (by simp; omega) hCne hC b3 b4 (by rw [b5]; exact a5)
      have hsplit : l = l.take m.count ++ ((l.take 256).drop m.count ++ l.drop 256) := by
        rw [← List.append_assoc]
        have : l.take m.count = (l.take 256).take m.count := by rw [List.take_take, Nat.min_eq_left (by omega)]
        rw [this, List.take_append_drop, List.take_append_drop]
      refine ⟨s3, os1 ++ (os2 ++ os3), ?_, ?_⟩
      · conv => lhs; rw [hsplit]
        rw [List.map_append, List.map_append]
        exact run_two a1 (run_two b1 c1)
      · rw [List.map_append, List.map_append, outA, outB, c2]
        have hr : List.range l.length = List.range m.count ++ ((List.range (256 - m.count)).map (m.count + ·) ++ (List.range (l.length - 256)).map (256 + ·)) := by
          conv => lhs; rw [show l.length = m.count + ((256 - m.count) + (l.length - 256)) by omega]
          rw [List.range_add, List.range_add, List.map_append, List.map_map]
          congr 3
          funext k
          simp only [Function.comp]
          omega
        rw [hr, List.map_append, List.map_append, List.map_map, List.map_map, List.length_drop]
        refine congr (congrArg _ rfl) (congr (congrArg _ rfl) ?_)
        apply List.map_congr_left
        intro k hk
        simp only [Function.comp]
        unfold answerTo
        simp only [hl.count, hC.count]
        rw [show 256 + k + 1 = (k + 1) + 256 by omega, Nat.add_mod_right]
        simp only [show ¬ m.count < 2 by omega, if_false]
        by_cases x : (k + 1) % 256 = 0 ∨ m.count < (k + 1) % 256
        · simp only [if_pos x]
        · simp only [if_neg x]
          by_cases y : (k + 1) % 256 < m.count
          · simp only [if_pos y]
          · simp only [if_neg y]
            have := Nat.mod_le (k + 1) 256
            rw [List.drop_drop, show k + 1 + 256 - m.count = 256 + (k + 1 - m.count) by omega]

end Verif.Proofs.TooLong
