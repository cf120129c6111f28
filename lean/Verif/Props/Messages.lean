import Verif.Proofs.CollMany
import Verif.Props.Collector2

/-! C59: many messages through one Collector. -/

namespace Verif.Props

open Verif.Model Verif.Model.Collector Verif.Spec Verif.Proofs Verif.Proofs.Coll
open Verif.Spec.Reassembly (Parts Input Result)

/-! Helpers. -/

theorem segment_multi {m : Ident} {seq : Nat} {pdu : TPDU} (h : SegmentOf m seq pdu) : MultiPart pdu :=
  ⟨_, h.1.info, h.1.multi⟩

theorem segOf_inj {m m' : Ident} {pdu : TPDU} (h : (segOf m pdu).isSome) (h' : (segOf m' pdu).isSome) : m = m' := by
  obtain ⟨a, h⟩ := Option.isSome_iff_exists.1 h
  obtain ⟨b, h'⟩ := Option.isSome_iff_exists.1 h'
  have h := segOf_some.1 h
  have h' := segOf_some.1 h'
  obtain ⟨⟨i1, _, _, _⟩, _, t1, p1⟩ := h
  obtain ⟨⟨i2, _, _, _⟩, _, t2, p2⟩ := h'
  rw [i1] at i2
  simp only [Option.some.injEq, UDH.Concat.mk.injEq] at i2
  obtain ⟨ty, a, ref, n⟩ := m
  obtain ⟨ty', a', ref', n'⟩ := m'
  simp only at t1 p1 t2 p2 i2
  obtain ⟨rfl, _, rfl⟩ := i2
  rw [← t1, ← p1, ← t2, ← p2]

theorem segs_isSome {m : Ident} {segs : List TPDU} (h : SegmentsOf m segs) : ∀ pdu ∈ segs, (segOf m pdu).isSome := by
  intro pdu hp
  obtain ⟨j, _, h2⟩ := segs_find h hp
  rw [h2]; rfl

theorem segs_ne {m : Ident} {segs : List TPDU} (h : SegmentsOf m segs) : segs ≠ [] := by
  intro e
  have h1 := h.count
  have h2 := h.multi
  rw [e] at h1
  simp at h1; omega

/-- The segments of a message among those of several. -/
theorem filter_msgs (m : Ident) : ∀ (msgs : List (Ident × List TPDU)), (∀ x ∈ msgs, SegmentsOf x.1 x.2) →
    ((msgs.map (·.2)).flatten).filter (fun pdu => (segOf m pdu).isSome) =
      ((msgs.filter (fun x => x.1 = m)).map (·.2)).flatten := by
  intro msgs
  induction msgs with
  | nil => intro _; rfl
  | cons x msgs ih =>
    intro h
    have hx := h x (by simp)
    rw [List.map_cons, List.flatten_cons, List.filter_append, ih (fun y hy => h y (by simp [hy]))]
    by_cases hm : x.1 = m
    · rw [List.filter_cons_of_pos (by simpa using hm), List.map_cons, List.flatten_cons]
      congr 1
      rw [List.filter_eq_self]
      intro pdu hp
      rw [← hm]
      exact segs_isSome hx pdu hp
    · rw [List.filter_cons_of_neg (by simpa using hm)]
      have : x.2.filter (fun pdu => (segOf m pdu).isSome) = [] := by
        rw [List.filter_eq_nil_iff]
        intro pdu hp hs
        exact hm (segOf_inj (segs_isSome hx pdu hp) hs)
      rw [this, List.nil_append]

theorem filter_ident (m : Ident) : ∀ (msgs : List (Ident × List TPDU)), (msgs.map (·.1)).Nodup →
    (msgs.filter (fun x => x.1 = m) = [] ∧ m ∉ msgs.map (·.1)) ∨
    ∃ segs, msgs.filter (fun x => x.1 = m) = [(m, segs)] ∧ (m, segs) ∈ msgs := by
  intro msgs
  induction msgs with
  | nil => intro _; left; exact ⟨rfl, by simp⟩
  | cons x msgs ih =>
    intro hnd
    rw [List.map_cons, List.nodup_cons] at hnd
    by_cases hm : x.1 = m
    · right
      refine ⟨x.2, ?_, by rw [← hm]; simp⟩
      rw [List.filter_cons_of_pos (by simpa using hm)]
      rcases ih hnd.2 with ⟨h, _⟩ | ⟨segs, h, hmem⟩
      · rw [h, ← hm]
      · exfalso
        apply hnd.1
        rw [hm]
        exact List.mem_map.2 ⟨_, hmem, rfl⟩
    · rw [List.filter_cons_of_neg (by simpa using hm)]
      rcases ih hnd.2 with ⟨h, h'⟩ | ⟨segs, h, hmem⟩
      · left
        refine ⟨h, ?_⟩
        simp only [List.map_cons, List.mem_cons, not_or]
        exact ⟨fun e => hm e.symm, h'⟩
      · right
        exact ⟨segs, h, by simp [hmem]⟩

theorem filter_singles (m : Ident) (singles : List TPDU) (h : ∀ pdu ∈ singles, ¬ MultiPart pdu) :
    singles.filter (fun pdu => (segOf m pdu).isSome) = [] := by
  rw [List.filter_eq_nil_iff]
  intro pdu hp hs
  obtain ⟨seq, hs⟩ := Option.isSome_iff_exists.1 hs
  exact h pdu hp (segment_multi (segOf_some.1 hs))

theorem ofMsg_segs {m m' : Ident} {segs : List TPDU} (h : SegmentsOf m segs) : ofMsg m' (segs.map some) = decide (m = m') := by
  rw [Bool.eq_iff_iff, decide_eq_true_eq]
  simp only [ofMsg, List.all_map, List.all_eq_true, Function.comp]
  constructor
  · intro hall
    obtain ⟨pdu, hp⟩ := List.exists_mem_of_ne_nil _ (segs_ne h)
    exact segOf_inj (segs_isSome h pdu hp) (hall pdu hp)
  · rintro rfl
    exact segs_isSome h

theorem sole_segs {m : Ident} {segs : List TPDU} (h : SegmentsOf m segs) : sole (segs.map some) = false := by
  have h1 := h.count
  have h2 := h.multi
  match segs with
  | [] => rfl
  | [x] => simp at h1; omega
  | x :: y :: l => rfl

theorem lookup_nil {α : Type} (l : List (List UInt8 × α)) (h : ∀ k, l.lookup k = none) : l = [] := by
  cases l with
  | nil => rfl
  | cons x l =>
    have := h x.1
    simp at this

/-- C59: the TPDUs of any number of messages, some of one TPDU and some of several, where the latter differ in
type, address, reference or number of segments, are collected in any order.  Then the complete messages
returned are exactly those, each once, no call reports an error, and nothing is left pending. -/
theorem C59_messages (timeout handler : Bool) (singles : List TPDU) (msgs : List (Ident × List TPDU))
    (hs : ∀ pdu ∈ singles, ¬ MultiPart pdu) (hm : ∀ x ∈ msgs, SegmentsOf x.1 x.2) (hd : (msgs.map (·.1)).Nodup)
    (arrival : List TPDU) (ha : arrival.Perm (singles ++ (msgs.map (·.2)).flatten)) :
    ∃ s os, run (New timeout handler) (arrival.map .collect) = .ok (s, os) ∧
      (returns os).Perm (singles.map (fun pdu => [some pdu]) ++ msgs.map (fun x => x.2.map some)) ∧
      (∀ d err, .returned d err ∈ os → err = none) ∧ Pipes s = [] := by
  -- every TPDU is one or the other
  have hkind : ∀ pdu ∈ arrival, ¬ MultiPart pdu ∨ ∃ m segs seq, (m, segs) ∈ msgs ∧ segOf m pdu = some seq := by
    intro pdu hp
    rcases List.mem_append.1 (ha.mem_iff.1 hp) with h | h
    · exact .inl (hs pdu h)
    · obtain ⟨segs, h1, h2⟩ := List.mem_flatten.1 h
      obtain ⟨x, hx, rfl⟩ := List.mem_map.1 h1
      obtain ⟨seq, hseq⟩ := Option.isSome_iff_exists.1 (segs_isSome (hm x hx) pdu h2)
      exact .inr ⟨x.1, x.2, seq, hx, hseq⟩
  have hfine : ∀ pdu ∈ arrival, Fine pdu := by
    intro pdu hp
    rcases hkind pdu hp with h | ⟨m, segs, seq, _, h⟩
    · exact fun h' => absurd h' h
    · exact segmentOf_fine (segOf_some.1 h)
  have hes : ∀ e ∈ arrival.map Event.collect, FineEvent e := by
    intro e he
    obtain ⟨pdu, hp, rfl⟩ := List.mem_map.1 he
    exact hfine pdu hp
  obtain ⟨s, os, hrun, hinv, hlen, _⟩ := run_ok _ (inv_new timeout handler) hes
  -- the segments of one message
  have hfilter : ∀ m, (arrival.filter (fun pdu => (segOf m pdu).isSome)).Perm
      ((msgs.filter (fun x => x.1 = m)).map (·.2)).flatten := by
    intro m
    have := ha.filter (fun pdu => (segOf m pdu).isSome)
    rwa [List.filter_append, filter_singles m singles hs, filter_msgs m msgs hm, List.nil_append] at this
  have hcalm : ∀ m i r, (i, r) ∈ watch m (New timeout handler) (arrival.map .collect) → ∃ seq pdu, i = .segment seq pdu :=
    fun m i r h => watch_calls m arrival _ i r h
  have honce : ∀ m segs, (m, segs) ∈ msgs → msgs.filter (fun x => x.1 = m) = [(m, segs)] := by
    intro m segs hmem
    rcases filter_ident m msgs hd with ⟨_, h⟩ | ⟨segs', h, _⟩
    · exact absurd (List.mem_map.2 ⟨_, hmem, rfl⟩) h
    · have : (m, segs) ∈ msgs.filter (fun x => x.1 = m) := List.mem_filter.2 ⟨hmem, by simp⟩
      rw [h] at this ⊢
      simp only [List.mem_cons, List.not_mem_nil, or_false, Prod.mk.injEq, true_and] at this
      rw [this]
  have hdel : ∀ m segs, (m, segs) ∈ msgs → deliveries m os = [segs.map some] ∧
      (watch m (New timeout handler) (arrival.map .collect)).map (·.2) =
        List.replicate (m.count - 1) (.returned [] none) ++ [.returned (segs.map some) none] := by
    intro m segs hmem
    refine C59_once timeout handler _ hes s os hrun m segs (hm _ hmem) ?_ (hcalm m)
    rw [collected_calls]
    have := hfilter m
    rw [honce m segs hmem] at this
    simpa using this
  refine ⟨s, os, hrun, ?_, ?_, ?_⟩
  · rw [List.perm_iff_count]
    intro d
    -- what is returned is of one of two kinds
    by_cases hsole : sole d = true
    · rw [← List.count_filter (l := returns os) hsole, ← List.count_filter (l := _ ++ _) hsole]
      rw [singles_run arrival (inv_new timeout handler) rfl hfine hrun, List.filter_append]
      have h1 : (singles.map (fun pdu => [some pdu])).filter sole = singles.map (fun pdu => [some pdu]) := by
        rw [List.filter_eq_self]
        intro x hx
        obtain ⟨pdu, hp, rfl⟩ := List.mem_map.1 hx
        simp [sole, hs pdu hp]
      have h2 : (msgs.map (fun x => x.2.map some)).filter sole = [] := by
        rw [List.filter_eq_nil_iff]
        intro x hx
        obtain ⟨y, hy, rfl⟩ := List.mem_map.1 hx
        rw [sole_segs (hm y hy)]; simp
      rw [h1, h2, List.append_nil]
      have h3 := ha.filter (fun pdu => ! decide (MultiPart pdu))
      have h4 : singles.filter (fun pdu => ! decide (MultiPart pdu)) = singles := by
        rw [List.filter_eq_self]
        intro pdu hp
        simp [hs pdu hp]
      have h5 : ((msgs.map (·.2)).flatten).filter (fun pdu => ! decide (MultiPart pdu)) = [] := by
        rw [List.filter_eq_nil_iff]
        intro pdu hp
        obtain ⟨segs, h1, h2⟩ := List.mem_flatten.1 hp
        obtain ⟨x, hx, rfl⟩ := List.mem_map.1 h1
        obtain ⟨seq, hseq⟩ := Option.isSome_iff_exists.1 (segs_isSome (hm x hx) pdu h2)
        simp [segment_multi (segOf_some.1 hseq)]
      rw [List.filter_append, h4, h5, List.append_nil] at h3
      exact (h3.map (fun pdu => [some pdu])).count_eq d
    · by_cases hof : ∃ m, ofMsg m d = true ∧ d ≠ []
      · obtain ⟨m, hof, hne⟩ := hof
        rw [← List.count_filter (l := returns os) hof, ← List.count_filter (l := _ ++ _) hof, ← deliveries_returns, List.filter_append]
        have h1 : (singles.map (fun pdu => [some pdu])).filter (ofMsg m) = [] := by
          rw [List.filter_eq_nil_iff]
          intro x hx hx'
          obtain ⟨pdu, hp, rfl⟩ := List.mem_map.1 hx
          have : (segOf m pdu).isSome := by simpa [ofMsg] using hx'
          obtain ⟨seq, hseq⟩ := Option.isSome_iff_exists.1 this
          exact hs pdu hp (segment_multi (segOf_some.1 hseq))
        have h2 : (msgs.map (fun x => x.2.map some)).filter (ofMsg m) =
            (msgs.filter (fun x => x.1 = m)).map (fun x => x.2.map some) := by
          rw [List.filter_map]
          congr 1
          apply List.filter_congr
          intro x hx
          exact ofMsg_segs (hm x hx)
        rw [h1, h2, List.nil_append]
        rcases filter_ident m msgs hd with ⟨h, h'⟩ | ⟨segs, h, hmem⟩
        · rw [h]
          have hw : watch m (New timeout handler) (arrival.map .collect) = [] := by
            have := watch_segments m _ hrun (hcalm m)
            rw [collected_calls] at this
            have hp := hfilter m
            rw [h] at hp
            rw [hp.eq_nil] at this
            exact List.map_eq_nil_iff.1 this
          rw [deliveries_watch m _ (inv_new timeout handler) hes hrun, hw]
          rfl
        · rw [h, (hdel m segs hmem).1]
          rfl
      · have hR : d ∉ returns os := by
          intro hmem
          unfold returns at hmem
          obtain ⟨o, ho, hd'⟩ := List.mem_filterMap.1 hmem
          cases o with
          | returned dd err =>
            simp only at hd'
            split at hd'
            · rename_i hne
              cases hd'
              have : (dd, err) ∈ replies os := List.mem_filterMap.2 ⟨_, ho, rfl⟩
              obtain ⟨c, hc⟩ := List.mem_iff_getElem?.1 this
              rcases (C49_complete timeout handler _ hes s os hrun c dd err hc hne).2 with ⟨pdu, _, hmp, rfl⟩ | ⟨m, hl, hall, _⟩
              · exact hsole (by simp [sole, pdus, hmp])
              · apply hof
                refine ⟨m, ?_, by simpa [pdus] using hne⟩
                simp only [ofMsg, pdus, List.all_map, List.all_eq_true, Function.comp]
                intro q hq
                obtain ⟨j, hj⟩ := List.mem_iff_getElem?.1 hq
                obtain ⟨ptr, hp1, hp2, _⟩ := hall j (by rw [← hl]; exact get_lt hj)
                rw [hp1] at hj
                cases hj
                simp [segOf_some.2 hp2]
            · cases hd'
          | _ => cases hd'
        have hL : d ∉ singles.map (fun pdu => [some pdu]) ++ msgs.map (fun x => x.2.map some) := by
          intro hmem
          rcases List.mem_append.1 hmem with h | h
          · obtain ⟨pdu, hp, rfl⟩ := List.mem_map.1 h
            exact hsole (by simp [sole, hs pdu hp])
          · obtain ⟨x, hx, rfl⟩ := List.mem_map.1 h
            exact hof ⟨x.1, by rw [ofMsg_segs (hm x hx)]; simp, by simpa using segs_ne (hm x hx)⟩
        rw [List.count_eq_zero_of_not_mem hR, List.count_eq_zero_of_not_mem hL]
  · intro d err ho
    obtain ⟨i, hi⟩ := List.mem_iff_getElem?.1 ho
    have hlt := get_lt hi
    rw [hlen, List.length_map] at hlt
    obtain ⟨pdu, hp⟩ : ∃ pdu, arrival[i]? = some pdu := ⟨_, List.getElem?_eq_getElem hlt⟩
    rcases hkind pdu (List.mem_of_getElem? hp) with h | ⟨m, segs, seq, hmem, hseq⟩
    · have := singles_out arrival (inv_new timeout handler) rfl hfine hrun i pdu _ hp h hi
      simp only [result, Result.returned.injEq] at this
      exact this.2
    · have hw := watch_mem m _ hrun i pdu seq _ (by rw [List.getElem?_map, hp]; rfl) hseq hi
      have hw : result (.returned d err) ∈ (watch m (New timeout handler) (arrival.map .collect)).map (·.2) :=
        List.mem_map.2 ⟨_, hw, rfl⟩
      rw [(hdel m segs hmem).2] at hw
      rcases List.mem_append.1 hw with hw | hw
      · have := (List.mem_replicate.1 hw).2
        simp only [result, Result.returned.injEq] at this
        exact this.2
      · simp only [result, List.mem_cons, List.not_mem_nil, or_false, Result.returned.injEq] at hw
        exact hw.2
  · apply lookup_nil
    intro k
    cases hl : (Pipes s).lookup k with
    | none => rfl
    | some p =>
      exfalso
      obtain ⟨m, rfl, _, ⟨j, ptr, hj⟩, hall⟩ := C53_pipes timeout handler _ hes s os hrun k p hl
      -- the message is one of those that are complete
      obtain ⟨s', os', hrun', hview⟩ := watch_run m _ (inv_new timeout handler) hes
      rw [hrun] at hrun'; cases hrun'
      rw [watch_segments m _ hrun (hcalm m), collected_calls, view_new] at hview
      rcases filter_ident m msgs hd with ⟨h, h'⟩ | ⟨segs, h, hmem⟩
      · have hp := hfilter m
        rw [h] at hp
        rw [hp.eq_nil] at hview
        have hv := congrArg Prod.fst hview
        simp only at hv
        have := view_idle (k := keyOf m) hinv (by rw [← hv]; rfl)
        have hl : s.pipes.lookup (keyOf m) = some p := hl
        rw [this] at hl; cases hl
      · have hp := hfilter m
        rw [h] at hp
        have hp : (arrival.filter (fun pdu => (segOf m pdu).isSome)).Perm segs := by simpa using hp
        have hr := (run_perm timeout handler m Reassembly.start rfl rfl (hm _ hmem) hp).2.1
        have hv := congrArg Prod.fst hview
        simp only at hv
        have := view_idle (k := keyOf m) hinv (by rw [← hv]; exact hr)
        have hl : s.pipes.lookup (keyOf m) = some p := hl
        rw [this] at hl; cases hl

/-- Beside C59: a single TPDU twice, and two messages that differ in the reference only. -/
example : (∀ pdu ∈ [exSingle, exSingle], ¬ MultiPart pdu) ∧
    SegmentsOf exIdent [exSeg 7 3 1, exSeg 7 3 2, exSeg 7 3 3] ∧
    SegmentsOf { exIdent with ref := 8 } [exSeg 8 3 1, exSeg 8 3 2, exSeg 8 3 3] ∧
    ([exIdent, { exIdent with ref := 8 }]).Nodup ∧
    [exSeg 8 3 3, exSeg 7 3 2, exSingle, exSeg 7 3 3, exSeg 8 3 1, exSeg 7 3 1, exSingle, exSeg 8 3 2].Perm
      ([exSingle, exSingle] ++ [[exSeg 7 3 1, exSeg 7 3 2, exSeg 7 3 3], [exSeg 8 3 1, exSeg 8 3 2, exSeg 8 3 3]].flatten) := by
  refine ⟨by decide, exSegments, ⟨rfl, by decide, ?_⟩, by decide, by decide⟩
  intro j pdu h
  match j with
  | 0 => cases h; exact segOf_some.1 (by decide)
  | 1 => cases h; exact segOf_some.1 (by decide)
  | 2 => cases h; exact segOf_some.1 (by decide)
  | j + 3 => simp at h

end Verif.Props
