import Verif.Proofs.Divided
import Verif.Props.Collector2

/-! C127: dividing what arrives between several Collectors. -/

namespace Verif.Props

open Verif.Model Verif.Model.Collector Verif.Spec Verif.Proofs Verif.Proofs.Coll
open Verif.Spec.Reassembly (Result)

/-- C127: if the TPDUs that arrive are divided between Collectors so that segments of one message go to the same one, and
the timers of the messages run out as they would have in a single Collector given all TPDUs, each of the Collectors
answers its calls and calls the expiry handler as the single one, and holds of its messages what the single one would
hold. -/
theorem C127_timers (timeout handler : Bool) (to : TPDU → Nat) (ht : KeepsTogether to) (es : List Event)
    (hes : ∀ e ∈ es, FineEvent e) (s : State) (os : List Output) (h : run (New timeout handler) es = .ok (s, os)) (k : Nat) :
    ∃ s' os', run (New timeout handler) ((share to k (New timeout handler) es).map (·.1)) = .ok (s', os') ∧
      os'.map result = (share to k (New timeout handler) es).map (·.2) ∧
      ∀ (m : Ident) (i : Nat) (p : TPDU), SegmentOf m i p → to p = k → pendingOf m s' = pendingOf m s := by
  obtain ⟨s', os', h1, h2, h3⟩ := Divided.same_run ht (k := k) es (s := New timeout handler) (s' := New timeout handler)
    ⟨inv_new _ _, inv_new _ _, rfl, rfl, rfl, fun _ _ => rfl, rfl⟩ hes h
  refine ⟨s', os', h1, h2, ?_⟩
  intro m i p hm hp
  rw [Divided.view_pendingOf h3.inv', Divided.view_pendingOf h3.inv, h3.views m ⟨i, p, hm, hp⟩]

/-- C127: in particular, if no timer runs out, each of the Collectors answers as the single one would have answered the
same calls. -/
theorem C127_divided (timeout handler : Bool) (to : TPDU → Nat) (ht : KeepsTogether to) (es : List Event)
    (hes : ∀ e ∈ es, FineEvent e) (hn : ∀ e ∈ es, NoTimer e) (s : State) (os : List Output)
    (h : run (New timeout handler) es = .ok (s, os)) (k : Nat) :
    ∃ s' os', run (New timeout handler) (es.filter (goesTo to k)) = .ok (s', os') ∧
      os'.map result = ((es.zip os).filter fun x => goesTo to k x.1).map (fun x => result x.2) ∧
      ∀ (m : Ident) (i : Nat) (p : TPDU), SegmentOf m i p → to p = k → pendingOf m s' = pendingOf m s := by
  have := C127_timers timeout handler to ht es hes s os h k
  rwa [(Divided.share_noTimer to k es hn h).1, (Divided.share_noTimer to k es hn h).2] at this

/-- C127: dividing by the other party, in whatever way, keeps messages together, and so does dividing by the type of the
TPDU and by the reference and count in the header. -/
theorem C127_ways (f : UInt8 → Address → Option (Nat × Nat) → Nat) :
    KeepsTogether fun p => f p.SmsType (peer p) (p.ConcatInfo.map fun c => (c.mref, c.segments)) := by
  intro m i j p q hp hq
  simp only [hp.2.2.1, hq.2.2.1, hp.2.2.2, hq.2.2.2, hp.1.info, hq.1.info, Option.map_some]

/-- C127: and there are no other ways for the segments of messages: to keep messages together is to divide by these. -/
theorem C127_only (to : TPDU → Nat) (ht : KeepsTogether to) :
    ∃ f : Ident → Nat, ∀ (m : Ident) (i : Nat) (p : TPDU), SegmentOf m i p → to p = f m := by
  classical
  refine ⟨fun m => if h : ∃ (i : Nat) (p : TPDU), SegmentOf m i p then to h.choose_spec.choose else 0, ?_⟩
  intro m i p hp
  have h : ∃ (i : Nat) (p : TPDU), SegmentOf m i p := ⟨i, p, hp⟩
  simp only [dif_pos h]
  exact ht m i _ p _ hp h.choose_spec.choose_spec

/-- C127: messages must be kept together: a Collector that is given segments of a message, in any order and number, but
never the one numbered `missing`, which goes elsewhere, never returns anything. -/
theorem C127_apart (timeout handler : Bool) (m : Ident) (l : List TPDU) (seg : TPDU → Nat)
    (hl : ∀ p ∈ l, SegmentOf m (seg p) p) (missing : Nat) (h1 : 1 ≤ missing) (h2 : missing ≤ m.count) (hm : ∀ p ∈ l, seg p ≠ missing)
    (s : State) (os : List Output) (h : run (New timeout handler) (l.map .collect) = .ok (s, os)) (c : Nat)
    (d : List (Option Ptr)) (err : Option Err) (hr : (replies os)[c]? = some (d, err)) : d = [] := by
  by_cases hd : d = []
  · exact hd
  · exfalso
    have hcol : collected (l.map .collect) = l := by
      unfold collected
      clear h hl hm
      induction l with
      | nil => rfl
      | cons a l ih => simpa using ih
    have hfine : ∀ e ∈ l.map Event.collect, FineEvent e := by
      intro e he
      obtain ⟨p, hp, rfl⟩ := List.mem_map.1 he
      exact fun _ => (hl p hp).2.1
    obtain ⟨_, hcase⟩ := C49_complete timeout handler _ hfine s os h c d err hr hd
    rcases hcase with ⟨pdu, hc, hnm, _⟩ | ⟨m', hlen, hseg, pdu, hc, hmem⟩
    · rw [hcol] at hc
      have := hl pdu (List.mem_of_getElem? hc)
      exact hnm ⟨_, this.1.info, this.1.multi⟩
    · have hall : ∀ j, j < m'.count → ∃ p ∈ l, SegmentOf m' (j + 1) p := by
        intro j hj
        obtain ⟨ptr, _, g2, g3, _⟩ := hseg j hj
        rw [hcol] at g3
        exact ⟨ptr.pdu, List.mem_of_getElem? g3, g2⟩
      have heq : ∀ (p : TPDU) (i j : Nat), SegmentOf m' i p → SegmentOf m j p → i = j ∧ m'.count = m.count := by
        intro p i j a b
        have := a.1.info.symm.trans b.1.info
        simp only [Option.some.injEq, UDH.Concat.mk.injEq] at this
        exact ⟨this.2.1, this.1⟩
      have hpos : 0 < m'.count := by
        have : d.length ≠ 0 := by simpa using hd
        omega
      obtain ⟨p0, hp0, g0⟩ := hall 0 hpos
      have hcnt := (heq p0 _ _ g0 (hl p0 hp0)).2
      obtain ⟨p, hp, g⟩ := hall (missing - 1) (by omega)
      have := (heq p _ _ g (hl p hp)).1
      exact hm p hp (by omega)

/-- Beside C127: the second of three segments goes elsewhere. -/
example : ∀ p ∈ [exSeg 7 3 3, exSeg 7 3 1, exSeg 7 3 3], SegmentOf exIdent (p.UD.headD 0).toNat p ∧ (p.UD.headD 0).toNat ≠ 2 := by
  intro p hp
  simp only [List.mem_cons, List.not_mem_nil, or_false] at hp
  rcases hp with rfl | rfl | rfl <;> exact ⟨segOf_some.1 (by decide), by decide⟩

/-- Beside C127: two Collectors, one for even and one for odd references. -/
example :
    let to : TPDU → Nat := fun p => ((p.ConcatInfo.map fun c => (c.mref, c.segments)).map (·.1)).getD 0 % 2
    let es : List Event := [.collect (exSeg 7 2 2), .collect (exSeg 8 2 2), .collect exSingle, .collect (exSeg 8 2 1), .collect (exSeg 7 2 1), .close]
    KeepsTogether to ∧ (∀ e ∈ es, NoTimer e) ∧
    es.filter (goesTo to 1) = [.collect (exSeg 7 2 2), .collect (exSeg 7 2 1), .close] ∧
    (run (New true true) (es.filter (goesTo to 1))).toOption.map (·.2.map result) =
      some [.returned [] none, .returned [some (exSeg 7 2 1), some (exSeg 7 2 2)] none, .silent] ∧
    (run (New true true) es).toOption.map (·.2.map result) =
      some [.returned [] none, .returned [] none, .returned [some exSingle] none,
        .returned [some (exSeg 8 2 1), some (exSeg 8 2 2)] none, .returned [some (exSeg 7 2 1), some (exSeg 7 2 2)] none, .silent] := by
  refine ⟨?_, ?_, rfl, rfl, rfl⟩
  · exact C127_ways fun _ _ c => (c.map (·.1)).getD 0 % 2
  · intro e he
    simp only [List.mem_cons, List.not_mem_nil, or_false] at he
    rcases he with rfl | rfl | rfl | rfl | rfl | rfl <;> trivial

/-- Beside C127: a timer of another message that runs out, and the second timer, which is the first one of the Collector
for odd references. -/
example :
    let to : TPDU → Nat := fun p => ((p.ConcatInfo.map fun c => (c.mref, c.segments)).map (·.1)).getD 0 % 2
    ∃ s os, run (New true true) [.collect (exSeg 8 2 2), .collect (exSeg 7 2 2)] = .ok (s, os) ∧
      timerAt to 1 s 0 = none ∧ timerAt to 1 s 1 = some 0 := by
  intro to
  have h7 : SegmentOf { exIdent with ref := 7, count := 2 } 2 (exSeg 7 2 2) := segOf_some.1 (by decide)
  have h8 : SegmentOf { exIdent with ref := 8, count := 2 } 2 (exSeg 8 2 2) := segOf_some.1 (by decide)
  have hto : KeepsTogether to := C127_ways fun _ _ c => (c.map (·.1)).getD 0 % 2
  have m7 : Divided.Mine to 1 (keyOf { exIdent with ref := 7, count := 2 }) := ⟨_, ⟨2, _, h7, by decide⟩, rfl⟩
  have m8 : ¬ Divided.Mine to 1 (keyOf { exIdent with ref := 8, count := 2 }) := by
    rintro ⟨m, ⟨i, p, hm, hp⟩, hk⟩
    have := keyOf_inj hk
    subst this
    rw [hto _ _ _ _ _ hm h8] at hp
    exact absurd hp (by decide)
  refine ⟨_, _, rfl, ?_, ?_⟩
  · rw [Divided.timerAt_keys]
    exact if_neg m8
  · rw [Divided.timerAt_keys]
    refine (if_pos m7).trans ?_
    congr 1
    change (List.filter _ [keyOf { exIdent with ref := 8, count := 2 }]).length = 0
    rw [List.filter_cons_of_neg (by simpa using m8)]
    rfl

end Verif.Props
