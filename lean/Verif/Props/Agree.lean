import Verif.Props.SmsDecode
import Verif.Props.Collector2

/-! C128: what `IsCompleteMessage` calls complete against what a Collector calls complete. -/

namespace Verif.Props

open Verif.Model Verif.Model.Collector Verif.Spec Verif.Proofs Verif.Proofs.Coll

/-- C128, partial: of two or more TPDUs a new Collector makes a message exactly if `IsCompleteMessage` says that they are
one and they are of the same type and have the same other party.  Missing, because false: that `IsCompleteMessage` looks
at type and party. -/
theorem C128_agree_partial (timeout handler : Bool) (segs : List TPDU) (hf : ∀ p ∈ segs, Fine p) (h2 : 2 ≤ segs.length) :
    (Model.Sms.IsCompleteMessage segs = true ∧ ∃ type party, ∀ p ∈ segs, p.SmsType = type ∧ peer p = party) ↔
    ∃ s os, run (New timeout handler) (segs.map .collect) = .ok (s, os) ∧
      (os.map result).getLast? = some (.returned (segs.map some) none) := by
  constructor
  · rintro ⟨hc, type, party, hp⟩
    rcases (C47_complete_iff segs).1 hc with ⟨s, rfl, _⟩ | ⟨_, ref, hi⟩
    · simp at h2
    · have hm : SegmentsOf ⟨type, party, ref, segs.length⟩ segs := by
        refine ⟨rfl, h2, ?_⟩
        intro j pdu hj
        have hmem := List.mem_of_getElem? hj
        have hjl := (List.getElem?_eq_some_iff.1 hj).1
        have hinfo := hi j pdu hj
        exact ⟨⟨hinfo, h2, by omega, by simp only; omega⟩, hf pdu hmem ⟨_, hinfo, h2⟩, (hp pdu hmem).1, (hp pdu hmem).2⟩
      obtain ⟨s', os', a, b, _⟩ := C48_any_order timeout handler [] (by simp) (New timeout handler) [] rfl rfl _ rfl segs segs hm (List.Perm.refl _)
      exact ⟨s', os', a, by rw [b]; simp⟩
  · rintro ⟨s, os, hr, hl⟩
    have hfine : ∀ e ∈ segs.map Event.collect, FineEvent e := by
      intro e he
      obtain ⟨p, hp, rfl⟩ := List.mem_map.1 he
      exact hf p hp
    obtain ⟨o, ho, hres⟩ := List.mem_map.1 (List.mem_of_getLast? hl)
    cases o with
    | silent => cases hres
    | handled d => cases hres
    | returned d err =>
      simp only [result, Reassembly.Result.returned.injEq] at hres
      obtain ⟨hd, rfl⟩ := hres
      have hlen : d.length = segs.length := by
        have := congrArg List.length hd
        simpa [pdus] using this
      have hrep : (d, none) ∈ replies os := List.mem_filterMap.2 ⟨_, ho, rfl⟩
      obtain ⟨c, hc⟩ := List.mem_iff_getElem?.1 hrep
      obtain ⟨_, hcase⟩ := C49_complete timeout handler _ hfine s os hr c d none hc (by intro h; rw [h] at hlen; simp at hlen; omega)
      rcases hcase with ⟨pdu, _, _, rfl⟩ | ⟨m, hm, hseg, _⟩
      · simp at hlen; omega
      · have hall : ∀ (i : Nat) (p : TPDU), segs[i]? = some p → SegmentOf m (i + 1) p := by
          intro i p hi
          have hil := (List.getElem?_eq_some_iff.1 hi).1
          obtain ⟨ptr, g1, g2, _⟩ := hseg i (by omega)
          have := congrArg (fun l => l[i]?) hd
          simp only [pdus, List.getElem?_map, g1, hi, Option.map_some, Option.some.injEq] at this
          rw [← this]; exact g2
        refine ⟨(C47_complete_iff segs).2 (.inr ⟨by intro h; rw [h] at h2; simp at h2, m.ref, ?_⟩), m.type, m.peer, ?_⟩
        · intro i p hi
          rw [← hlen, hm]
          exact (hall i p hi).1.info
        · intro p hp
          obtain ⟨i, hi⟩ := List.mem_iff_getElem?.1 hp
          exact ⟨(hall i p hi).2.2.1, (hall i p hi).2.2.2⟩

/-- C128: a single TPDU is always returned by a new Collector at once, unless it says it is one of several; it is complete,
according to `IsCompleteMessage`, unless it says it is other than the first of one. -/
theorem C128_single (timeout handler : Bool) (p : TPDU) (hf : Fine p) :
    ((∃ s os, run (New timeout handler) [.collect p] = .ok (s, os) ∧ os.map result = [.returned [some p] none]) ↔ ¬ MultiPart p) ∧
    (Model.Sms.IsCompleteMessage [p] = true ↔ p.ConcatInfo = none ∨ ∃ ref, p.ConcatInfo = some ⟨1, 1, ref⟩) := by
  constructor
  · constructor
    · rintro ⟨s, os, hr, ho⟩ ⟨ci, h1, h2⟩
      have hfine : ∀ e ∈ [Event.collect p], FineEvent e := by simpa [FineEvent] using hf
      obtain ⟨o, rfl, hres⟩ : ∃ o, os = [o] ∧ result o = .returned [some p] none := by
        obtain ⟨o, os, rfl, h1, h2⟩ := List.map_eq_cons_iff.1 ho
        rw [List.map_eq_nil_iff] at h2
        subst h2
        exact ⟨o, rfl, h1⟩
      · cases o with
        | silent => cases hres
        | handled d => cases hres
        | returned d err =>
          obtain ⟨hd, rfl⟩ := Reassembly.Result.returned.inj hres
          have hlen : d.length = 1 := by
            have := congrArg List.length hd
            simpa [pdus] using this
          obtain ⟨_, hcase⟩ := C49_complete timeout handler _ hfine s _ hr 0 d none rfl (by intro h; rw [h] at hlen; simp at hlen)
          rcases hcase with ⟨pdu, hc, hn, _⟩ | ⟨m, hm, hseg, _⟩
          · simp only [collected, List.filterMap_cons, List.filterMap_nil, List.getElem?_cons_zero, Option.some.injEq] at hc
            subst hc
            exact hn ⟨ci, h1, h2⟩
          · obtain ⟨ptr, _, g2, _⟩ := hseg 0 (by omega)
            have := g2.1.multi
            omega
    · intro hn
      have hc : Collect (New timeout handler) p = .ok ({ New timeout handler with calls := 1 }, .returned [some ⟨0, p⟩] none) := by
        unfold Collect
        cases hi : p.ConcatInfo with
        | none => rfl
        | some ci =>
          have : ci.segments < 2 := by
            by_cases h : ci.segments < 2
            · exact h
            · exact absurd ⟨ci, hi, by omega⟩ hn
          simp only
          rw [if_neg (by simp [New]), if_pos this]
          rfl
      refine ⟨{ New timeout handler with calls := 1 }, [.returned [some ⟨0, p⟩] none], ?_, rfl⟩
      unfold run
      rw [show step (New timeout handler) (.collect p) = Collect (New timeout handler) p from rfl, hc]
      rfl
  · rw [C47_complete_iff]
    constructor
    · rintro (⟨q, hq, hn⟩ | ⟨_, ref, h⟩)
      · cases hq; exact .inl hn
      · exact .inr ⟨ref, h 0 p rfl⟩
    · rintro (hn | ⟨ref, h⟩)
      · exact .inl ⟨p, rfl, hn⟩
      · refine .inr ⟨by simp, ref, ?_⟩
        intro i q hi
        match i with
        | 0 => cases hi; exact h
        | i + 1 => simp at hi

/-- C128 is false: segments of messages of two senders that use the same reference are complete according to
`IsCompleteMessage`, and are decoded as one text, but a Collector keeps them apart; and a TPDU that says it is the second
of one is not complete, but is returned by the Collector. -/
theorem C128_counterexample :
    (∃ (p q : TPDU) (s : State) (os : List Output), Model.Sms.IsCompleteMessage [p, q] = true ∧
      (∃ text, Model.Sms.Decode [p, q] [] = .ok text) ∧ peer p ≠ peer q ∧
      run (New false false) [.collect p, .collect q] = .ok (s, os) ∧ os.map result = [.returned [] none, .returned [] none]) ∧
    (∃ (p : TPDU) (s : State) (os : List Output), Model.Sms.IsCompleteMessage [p] = false ∧
      run (New false false) [.collect p] = .ok (s, os) ∧ os.map result = [.returned [some p] none]) :=
  ⟨⟨exSeg 7 2 1, { exSeg 7 2 2 with OA := ⟨0x91, [0x39]⟩ }, _, _, by decide, ⟨_, rfl⟩, by decide, rfl, rfl⟩,
    exSeg 7 1 2, _, _, by decide, rfl, rfl⟩

/-- Beside C128: a message that both call complete, and one in the wrong order, which neither does, as given. -/
example : Model.Sms.IsCompleteMessage [exSeg 7 3 1, exSeg 7 3 2, exSeg 7 3 3] = true ∧
    (∀ p ∈ [exSeg 7 3 1, exSeg 7 3 2, exSeg 7 3 3], p.SmsType = SmsDeliver ∧ peer p = ⟨0x91, [0x31, 0x3a, 0x32]⟩) ∧
    Model.Sms.IsCompleteMessage [exSeg 7 2 2, exSeg 7 2 1] = false ∧
    ∃ s os, run (New false false) [.collect (exSeg 7 2 2), .collect (exSeg 7 2 1)] = .ok (s, os) ∧
      (os.map result).getLast? = some (.returned [some (exSeg 7 2 1), some (exSeg 7 2 2)] none) :=
  ⟨by decide, by decide, by decide, _, _, rfl, rfl⟩

end Verif.Props
