import Verif.Props.CmdSafe

/-! What happens when two messages have the same type, other party, reference and count. -/

namespace Verif.Proofs

open Verif.Model Verif.Model.Collector Verif.Spec Verif.Proofs.Coll Verif.Props
open Verif.Spec.Reassembly (Parts)

/-- The TPDU is a message by itself, or the first segment of one. -/
def isFirst (pdu : TPDU) : Bool :=
  match pdu.ConcatInfo with
  | some c => decide (c.segments < 2) || decide (c.seqno = 1)
  | none => true

theorem isFirst_single {pdu : TPDU} (h : ¬ MultiPart pdu) : isFirst pdu = true := by
  unfold isFirst
  split
  · rename_i c hc
    have : ¬ 2 ≤ c.segments := fun h2 => h ⟨c, hc, h2⟩
    simp; omega
  · rfl

theorem isFirst_segment {m : Ident} {seq : Nat} {pdu : TPDU} (h : SegmentOf m seq pdu) : isFirst pdu = decide (seq = 1) := by
  unfold isFirst
  rw [h.1.info]
  have := h.1.multi
  simp only [show ¬ m.count < 2 by omega, decide_false, Bool.false_or]

/-- The calls that gave the first TPDU of what was returned. -/
def heads (os : List Output) : List Nat :=
  os.filterMap (fun o => match o with
    | .returned (some ptr :: _) _ => some ptr.id
    | _ => none)

theorem heads_length (os : List Output) (h : ∀ d e, .returned d e ∈ os → d ≠ [] → ∃ ptr d', d = some ptr :: d') :
    (heads os).length = (returns os).length := by
  induction os with
  | nil => rfl
  | cons o os ih =>
    have ih := ih (fun d e hm => h d e (by simp [hm]))
    unfold heads returns at *
    rw [List.filterMap_cons, List.filterMap_cons]
    cases o with
    | silent => exact ih
    | handled d => exact ih
    | returned d e =>
      cases d with
      | nil => simpa using ih
      | cons x d =>
        obtain ⟨ptr, d', hd⟩ := h (x :: d) e (by simp) (by simp)
        cases hd
        simpa using ih

/-- If a TPDU that begins a message is rejected, fewer messages are returned than were begun. -/
theorem fewer_returned (timeout handler : Bool) (arrival : List TPDU) (hf : ∀ pdu ∈ arrival, Fine pdu) (s : State) (os : List Output)
    (h : run (New timeout handler) (arrival.map .collect) = .ok (s, os)) (c : Nat) (pdu : TPDU) (hc : arrival[c]? = some pdu)
    (h1 : isFirst pdu = true) (d : List (Option Ptr)) (err : Err) (hr : (replies os)[c]? = some (d, some err)) :
    (returns os).length < arrival.countP isFirst := by
  have hes : ∀ e ∈ arrival.map Event.collect, FineEvent e := by
    intro e he
    obtain ⟨p, hp, rfl⟩ := List.mem_map.1 he
    exact hf p hp
  have hcol : collected (arrival.map .collect) = arrival := by
    unfold collected
    rw [List.filterMap_map]
    exact List.filterMap_some
  have hh := hist_run hes h
  -- what is returned begins with a first TPDU
  have hret : ∀ d e, .returned d e ∈ os → d ≠ [] → ∃ ptr d', d = some ptr :: d' ∧ isFirst ptr.pdu = true ∧
      arrival[ptr.id]? = some ptr.pdu := by
    intro d e hm hd
    have hm' : (d, e) ∈ replies os := List.mem_filterMap.2 ⟨_, hm, rfl⟩
    obtain ⟨c', hc'⟩ := List.mem_iff_getElem?.1 hm'
    obtain ⟨_, ⟨pdu, g1, g2, rfl⟩ | ⟨m, g1, g2, _⟩⟩ := C49_complete timeout handler _ hes s os h c' d e hc' hd
    · rw [hcol] at g1
      exact ⟨_, _, rfl, isFirst_single g2, g1⟩
    · cases d with
      | nil => exact absurd rfl hd
      | cons x d =>
        obtain ⟨ptr, e1, e2, e3, _⟩ := g2 0 (by rw [← g1]; simp)
        simp only [List.getElem?_cons_zero, Option.some.injEq] at e1
        subst e1
        rw [hcol] at e3
        exact ⟨ptr, d, rfl, by rw [isFirst_segment e2]; rfl, e3⟩
  rw [← heads_length os (fun d e hm hd => by obtain ⟨ptr, d', g, _⟩ := hret d e hm hd; exact ⟨ptr, d', g⟩)]
  -- each begins with another one
  have hnd : (heads os).Nodup := by
    unfold heads
    rw [List.nodup_iff_pairwise_ne, List.pairwise_filterMap, List.pairwise_iff_getElem]
    intro i j hi hj hij b hb b' hb' heq
    subst heq
    have gi := List.getElem?_eq_getElem hi
    have gj := List.getElem?_eq_getElem hj
    split at hb
    · rename_i ptr d1 e1 ho1
      split at hb'
      · rename_i ptr' d2 e2 ho2
        have hid := (Option.some.inj hb').trans (Option.some.inj hb).symm
        rw [ho1] at gi
        rw [ho2] at gj
        have a1 : At os s ptr.id (.returned i 0) := ⟨_, _, ptr, gi, rfl, rfl⟩
        have a2 : At os s ptr.id (.returned j 0) := ⟨_, _, ptr', gj, rfl, hid⟩
        have := at_uniq hh a1 a2
        cases this
        omega
      · cases hb'
    · cases hb
  -- and none with the one rejected
  have hsub : heads os ⊆ ((arrival.zipIdx.filter (fun x => isFirst x.1)).map (·.2)).filter (· ≠ c) := by
    intro b hb
    obtain ⟨o, ho, hb⟩ := List.mem_filterMap.1 hb
    split at hb
    · rename_i ptr d1 e1
      cases hb
      obtain ⟨ptr', d', g1, g2, g3⟩ := hret _ _ ho (by simp)
      cases g1
      refine List.mem_filter.2 ⟨List.mem_map.2 ⟨(ptr.pdu, ptr.id), List.mem_filter.2 ⟨?_, g2⟩, rfl⟩, ?_⟩
      · rw [List.mk_mem_zipIdx_iff_getElem?]; exact g3
      · simp only [ne_eq, decide_not, Bool.not_eq_eq_eq_not, Bool.not_true, decide_eq_false_iff_not]
        intro he
        obtain ⟨i, hi⟩ := List.mem_iff_getElem?.1 ho
        exact C50_rejected timeout handler _ hes s os h c d err hr (.returned i 0) ⟨_, _, ptr, hi, rfl, he⟩
    · cases hb
  have hle := List.Nodup.length_le_of_subset hnd hsub
  have hlen : (((arrival.zipIdx.filter (fun x => isFirst x.1)).map (·.2)).filter (· ≠ c)).length <
      ((arrival.zipIdx.filter (fun x => isFirst x.1)).map (·.2)).length := by
    rw [← List.countP_eq_length_filter]
    refine Nat.lt_of_le_of_ne List.countP_le_length ?_
    intro he
    have := List.countP_eq_length.1 he c (List.mem_map.2 ⟨(pdu, c), List.mem_filter.2 ⟨by rw [List.mk_mem_zipIdx_iff_getElem?]; exact hc, h1⟩, rfl⟩)
    simp at this
  have hcount : ((arrival.zipIdx.filter (fun x => isFirst x.1)).map (·.2)).length = arrival.countP isFirst := by
    rw [List.length_map, ← List.countP_eq_length_filter]
    have : arrival.countP isFirst = (arrival.zipIdx.map (·.1)).countP isFirst := by rw [List.zipIdx_map_fst]
    rw [this, List.countP_map]
    rfl
  omega

/-- Two TPDUs that both are the first segment of the same message, one after the other. -/
theorem collide_lost (timeout handler : Bool) (m : Ident) (q q' : TPDU) (rest : List TPDU) (hq : SegmentOf m 1 q)
    (hq' : SegmentOf m 1 q') (hf : ∀ pdu ∈ rest, Fine pdu) (s : State) (os : List Output)
    (h : run (New timeout handler) ((q :: q' :: rest).map .collect) = .ok (s, os)) :
    (returns os).length < (q :: q' :: rest).countP isFirst ∧ ∃ d, .returned d (some .duplicateSegment) ∈ os := by
  have hfine : ∀ pdu ∈ q :: q' :: rest, Fine pdu := by
    intro pdu hp
    rcases List.mem_cons.1 hp with rfl | hp
    · exact segmentOf_fine hq
    rcases List.mem_cons.1 hp with rfl | hp
    · exact segmentOf_fine hq'
    · exact hf pdu hp
  obtain ⟨s1, os1, s2, o, r1, r2, r3⟩ := C48_repeated timeout handler [] (by simp) (New timeout handler) [] rfl rfl m rfl [q]
    (by intro pdu hp; rw [List.mem_singleton.1 hp]; exact ⟨1, hq⟩)
    (by
      intro hcov
      apply hcov 2 (by omega) hq.1.multi
      unfold firstOf
      have := segOf_some.2 hq
      simp [this]) q' 1 hq'
  have hfirst : firstOf m [q] 1 ≠ none := by
    unfold firstOf
    simp [segOf_some.2 hq]
  rw [if_pos hfirst] at r3
  rw [List.map_cons, List.map_cons, run] at h
  obtain ⟨⟨s1', o1⟩, hc1, h⟩ := bind_eq_ok.1 h
  simp only at h
  obtain ⟨⟨s3, os2⟩, h', h⟩ := bind_eq_ok.1 h
  cases h
  rw [run] at h'
  obtain ⟨⟨s2', o2⟩, hc2, h'⟩ := bind_eq_ok.1 h'
  simp only at h'
  obtain ⟨⟨s4, os3⟩, h'', h'⟩ := bind_eq_ok.1 h'
  cases h'
  rw [List.map_cons, run, hc1] at r1
  simp only [ok_bind, List.map_nil, run] at r1
  cases r1
  change Collect s1 q' = .ok (s2', o2) at hc2
  rw [r2] at hc2
  cases hc2
  have hi0 := inv_new timeout handler
  obtain ⟨s1'', o1'', e1, e2⟩ := collect_outcome _ hi0 q (segmentOf_fine hq)
  change Collect (New timeout handler) q = .ok (s1, o1) at hc1
  rw [hc1] at e1
  cases e1
  obtain ⟨d1, er1, rfl, _⟩ := collect_all_some hi0 e2
  cases o with
  | silent => cases r3
  | handled d => cases r3
  | returned d e =>
    have r3 := (Reassembly.Result.returned.inj r3).2
    cases e with
    | none => cases r3
    | some e =>
      have he : e = .duplicateSegment := Option.some.inj r3
      subst he
      refine ⟨?_, d, by simp⟩
      refine fewer_returned timeout handler (q :: q' :: rest) hfine s4 (.returned d1 er1 :: .returned d (some .duplicateSegment) :: os3) ?_
        1 q' rfl (by rw [isFirst_segment hq']; rfl) d .duplicateSegment rfl
      rw [List.map_cons, run]
      show (do let (s, o) ← Collect (New timeout handler) q; let (s, os) ← run s _; return (s, o :: os) : M _) = _
      rw [hc1]
      simp only [ok_bind]
      rw [List.map_cons, run]
      show (do let (s, os) ← (do let (s, o) ← Collect s1 q'; let (s, os) ← run s _; return (s, o :: os)); return (s, Output.returned d1 er1 :: os) : M _) = _
      rw [r2]
      simp only [ok_bind]
      rw [h'']
      rfl

/-- A message has one TPDU that begins it. -/
theorem item_first {dopts : List CharsetOpt} {i : Item} (h : Good dopts i) (hn : i.pdus.length ≤ 255) : i.qs.countP isFirst = 1 := by
  by_cases h2 : 2 ≤ i.pdus.length
  · have hs := item_segments h hn h2
    match hqs : i.qs with
    | [] => have := item_length h; rw [hqs] at this; simp at this; omega
    | q :: qs =>
      rw [hqs] at hs
      rw [List.countP_cons, isFirst_segment (hs.seg 0 q rfl)]
      have : qs.countP isFirst = 0 := by
        rw [List.countP_eq_zero]
        intro p hp
        obtain ⟨j, hj⟩ := List.mem_iff_getElem?.1 hp
        rw [isFirst_segment (hs.seg (j + 1) p (by simpa using hj))]
        simp
      rw [this]
      rfl
  · obtain ⟨q, hq, hm⟩ := item_single h hn h2
    rw [hq, List.countP_cons, isFirst_single hm]
    rfl

theorem items_first {dopts : List CharsetOpt} (items : List Item) (h : ∀ i ∈ items, Good dopts i) (hn : ∀ i ∈ items, i.pdus.length ≤ 255) :
    (items.map (·.qs)).flatten.countP isFirst = items.length := by
  induction items with
  | nil => rfl
  | cons i items ih =>
    rw [List.map_cons, List.flatten_cons, List.countP_append, item_first (h i (by simp)) (hn i (by simp)),
      ih (fun j hj => h j (by simp [hj])) (fun j hj => hn j (by simp [hj])), List.length_cons, Nat.add_comm]

theorem item_fine {dopts : List CharsetOpt} {i : Item} (h : Good dopts i) : ∀ q ∈ i.qs, Fine q := by
  intro q hq _
  unfold Supported
  rw [(h.route q hq).1]
  exact h.supported

theorem not_nodup {α β : Type} (f : α → β) (l : List α) (h : ¬ (l.map f).Nodup) : ∃ a b rest, l.Perm (a :: b :: rest) ∧ f a = f b := by
  induction l with
  | nil => exact absurd (by simp) h
  | cons x l ih =>
    rw [List.map_cons, List.nodup_cons] at h
    by_cases hx : f x ∈ l.map f
    · obtain ⟨b, hb, he⟩ := List.mem_map.1 hx
      obtain ⟨l1, l2, rfl⟩ := List.append_of_mem hb
      exact ⟨x, b, l1 ++ l2, List.Perm.cons x List.perm_middle, he.symm⟩
    · obtain ⟨a, b, rest, hp, he⟩ := ih (fun hn => h ⟨hx, hn⟩)
      refine ⟨a, b, x :: rest, (hp.cons x).trans ?_, he⟩
      exact (List.Perm.swap a x _).trans (.cons a (List.Perm.swap b x _))

/-- If two messages have the same identification, there is an order of arrival with which one gets lost. -/
theorem items_lost (timeout handler : Bool) (dopts : List CharsetOpt) (items : List Item)
    (h3 : ∀ i ∈ items, Good dopts i) (hsz : ∀ i ∈ items, i.pdus.length ≤ 255)
    (hids : ¬ ((items.filter (fun i => 2 ≤ i.pdus.length)).map Item.ident).Nodup) :
    ∃ arrival : List TPDU, arrival.Perm (items.map (·.qs)).flatten ∧
      ∀ s os, run (New timeout handler) (arrival.map .collect) = .ok (s, os) →
        (returns os).length < items.length ∧ ∃ d, .returned d (some .duplicateSegment) ∈ os := by
  obtain ⟨a, b, rest, hp, he⟩ := not_nodup _ _ hids
  have hperm : items.Perm (a :: b :: (rest ++ items.filter (fun i => ! decide (2 ≤ i.pdus.length)))) :=
    (List.filter_append_perm (fun i => decide (2 ≤ i.pdus.length)) items).symm.trans (hp.append_right _)
  have hmem : ∀ x ∈ a :: b :: rest, x ∈ items ∧ 2 ≤ x.pdus.length := by
    intro x hx
    obtain ⟨h1, h2⟩ := List.mem_filter.1 (hp.mem_iff.2 hx)
    exact ⟨h1, by simpa using h2⟩
  obtain ⟨ha, ha2⟩ := hmem a (by simp)
  obtain ⟨hb, hb2⟩ := hmem b (by simp)
  have sa := item_segments (h3 a ha) (hsz a ha) ha2
  have sb := item_segments (h3 b hb) (hsz b hb) hb2
  have hfl := (hperm.map (·.qs)).flatten
  rw [List.map_cons, List.map_cons, List.flatten_cons, List.flatten_cons] at hfl
  match hqa : a.qs, hqb : b.qs with
  | [], _ => have := item_length (h3 a ha); rw [hqa] at this; simp at this; omega
  | _ :: _, [] => have := item_length (h3 b hb); rw [hqb] at this; simp at this; omega
  | q :: qs, q' :: qs' =>
    rw [hqa, hqb] at hfl
    have harr : (q :: q' :: (qs ++ (qs' ++ ((rest ++ items.filter (fun i => ! decide (2 ≤ i.pdus.length))).map (·.qs)).flatten))).Perm
        (items.map (·.qs)).flatten := by
      refine List.Perm.trans ?_ hfl.symm
      rw [List.cons_append]
      refine .cons q ?_
      rw [List.cons_append]
      exact List.perm_middle.symm
    refine ⟨_, harr, ?_⟩
    intro s os hrun
    have := collide_lost timeout handler a.ident q q' _ (sa.seg 0 q (by rw [hqa]; rfl)) (by rw [he]; exact sb.seg 0 q' (by rw [hqb]; rfl))
      (by
        intro pdu hpdu
        have : pdu ∈ (items.map (·.qs)).flatten := harr.mem_iff.1 (by simp only [List.mem_cons]; exact .inr (.inr hpdu))
        obtain ⟨l, hl, hpl⟩ := List.mem_flatten.1 this
        obtain ⟨i, hi, rfl⟩ := List.mem_map.1 hl
        exact item_fine (h3 i hi) pdu hpl) s os hrun
    rw [harr.countP_eq, items_first items h3 hsz] at this
    exact this

end Verif.Proofs
