import Verif.Spec.Arrival
import Verif.Proofs.CollRun

/-! The order in which the segments of one message arrive. -/

namespace Verif.Proofs.Coll
open Verif.Model Verif.Model.Collector Verif.Spec Verif.Proofs
open Verif.Spec.Reassembly (Parts Input Result View Clock)

/-- The TPDUs are segments of the message. -/
def AllOf (m : Ident) (l : List TPDU) : Prop := ∀ pdu ∈ l, ∃ seq, SegmentOf m seq pdu

/-- The arrival of a segment, as an input. -/
def inp (m : Ident) (pdu : TPDU) : Input := .segment ((segOf m pdu).getD 0) pdu

theorem rrun_snoc (to ha : Bool) (n : Nat) (l : List Input) (i : Input) : ∀ v : View,
    Reassembly.run to ha n v (l ++ [i]) =
      ((Reassembly.step to ha n (Reassembly.run to ha n v l).1 i).1,
        (Reassembly.run to ha n v l).2 ++ [(Reassembly.step to ha n (Reassembly.run to ha n v l).1 i).2]) := by
  induction l with
  | nil => intro v; rfl
  | cons j l ih =>
    intro v
    simp only [List.cons_append, Reassembly.run]
    rw [ih]

theorem firstOf_snoc (m : Ident) (l : List TPDU) (pdu : TPDU) (seq : Nat) :
    firstOf m (l ++ [pdu]) seq = (firstOf m l seq).or (if segOf m pdu = some seq then some pdu else none) := by
  unfold firstOf
  rw [List.find?_append]
  congr 1
  by_cases h : segOf m pdu = some seq
  · simp [h]
  · simp [h]

theorem partsOf_length (m : Ident) (l : List TPDU) : (partsOf m l).length = m.count := by simp [partsOf]

theorem partsOf_get (m : Ident) (l : List TPDU) (j : Nat) (h : j < m.count) :
    (partsOf m l)[j]? = some (firstOf m l (j + 1)) := by
  unfold partsOf
  rw [List.getElem?_map, List.getElem?_range h]
  rfl

theorem partsOf_nil (m : Ident) : partsOf m [] = List.replicate m.count none := by
  apply List.ext_getElem?
  intro j
  by_cases h : j < m.count
  · rw [partsOf_get m [] j h, List.getElem?_replicate, if_pos h]; rfl
  · rw [List.getElem?_eq_none (by rw [partsOf_length]; omega), List.getElem?_eq_none (by simp; omega)]

theorem partsOf_snoc (m : Ident) (l : List TPDU) (pdu : TPDU) (seq : Nat) (hs : SegmentOf m seq pdu)
    (hn : firstOf m l seq = none) : partsOf m (l ++ [pdu]) = (partsOf m l).set (seq - 1) (some pdu) := by
  have hp := hs.1.pos
  have hl := hs.1.le
  have hso := segOf_some.2 hs
  apply List.ext_getElem?
  intro j
  by_cases h : j < m.count
  · rw [partsOf_get m _ j h, List.getElem?_set, partsOf_length, partsOf_get m _ j h, firstOf_snoc, hso]
    by_cases hj : seq - 1 = j
    · have : seq = j + 1 := by omega
      subst this
      rw [if_pos rfl, hn]
      simp [h]
    · rw [if_neg hj, if_neg (by simp; omega)]
      simp
  · rw [List.getElem?_eq_none (by rw [partsOf_length]; omega),
      List.getElem?_eq_none (by rw [List.length_set, partsOf_length]; omega)]

theorem covered_parts (m : Ident) (l : List TPDU) : Covered m l ↔ ∀ q ∈ partsOf m l, q ≠ none := by
  constructor
  · intro h q hq
    obtain ⟨j, hj, rfl⟩ := List.mem_map.1 hq
    exact h (j + 1) (by omega) (by have := List.mem_range.1 hj; omega)
  · intro h seq h1 h2
    refine h _ (List.mem_map.2 ⟨seq - 1, List.mem_range.2 (by omega), ?_⟩)
    rw [Nat.sub_add_cancel h1]

theorem received_iff (m : Ident) (l : List TPDU) (seq : Nat) (h1 : 1 ≤ seq) (h2 : seq ≤ m.count) :
    Reassembly.received (partsOf m l) seq = (firstOf m l seq).isSome := by
  unfold Reassembly.received
  rw [partsOf_get m l (seq - 1) (by omega), Nat.sub_add_cancel h1]
  cases firstOf m l seq <;> rfl

/-- A view in which exactly `l` has arrived of the message. -/
structure Pending (m : Ident) (l : List TPDU) (v : View) : Prop where
  opened : v.closed = false
  parts : ∃ clock, v.pending = some (partsOf m l, clock) ∧ Reassembly.ranOut v.clocks clock = false

theorem wait_pending (to : Bool) (v : View) (m : Ident) (l : List TPDU) (h : v.closed = false) :
    Pending m l (Reassembly.wait to v (partsOf m l)) := by
  unfold Reassembly.wait
  cases to with
  | true =>
    refine ⟨h, some v.clocks.length, rfl, ?_⟩
    simp [Reassembly.ranOut]
  | false => exact ⟨h, none, rfl, rfl⟩

/-- The first segment. -/
theorem seg_first (to : Bool) (m : Ident) (v : View) (pdu : TPDU) (seq : Nat) (hs : SegmentOf m seq pdu)
    (hc : v.closed = false) (hp : v.pending = none) :
    Pending m [pdu] (Reassembly.segment to m.count v seq pdu).1 ∧
      (Reassembly.segment to m.count v seq pdu).2 = .returned [] none := by
  unfold Reassembly.segment
  rw [hc, hp]
  simp only [Bool.false_eq_true, if_false]
  refine ⟨?_, trivial⟩
  rw [← partsOf_nil, ← partsOf_snoc m [] pdu seq hs rfl]
  exact wait_pending to v m _ hc

/-- A segment that has arrived already. -/
theorem seg_dup (to : Bool) (m : Ident) (v : View) (l : List TPDU) (pdu : TPDU) (seq : Nat) (hs : SegmentOf m seq pdu)
    (hv : Pending m l v) (hd : firstOf m l seq ≠ none) :
    Reassembly.segment to m.count v seq pdu = (v, .returned [] (some .duplicateSegment)) := by
  obtain ⟨clock, hp, hr⟩ := hv.parts
  unfold Reassembly.segment
  rw [hv.opened, hp]
  simp only [Bool.false_eq_true, if_false]
  rw [received_iff m l seq hs.1.pos hs.1.le, if_pos]
  exact Option.isSome_iff_ne_none.2 hd

/-- Another segment. -/
theorem seg_more (to : Bool) (m : Ident) (v : View) (l : List TPDU) (pdu : TPDU) (seq : Nat) (hs : SegmentOf m seq pdu)
    (hv : Pending m l v) (hd : firstOf m l seq = none) (hc : ¬ Covered m (l ++ [pdu])) :
    Pending m (l ++ [pdu]) (Reassembly.segment to m.count v seq pdu).1 ∧
      (Reassembly.segment to m.count v seq pdu).2 = .returned [] none := by
  obtain ⟨clock, hp, hr⟩ := hv.parts
  unfold Reassembly.segment
  rw [hv.opened, hp]
  simp only [Bool.false_eq_true, if_false]
  rw [received_iff m l seq hs.1.pos hs.1.le, hd, if_neg (by simp), hr, if_neg (by simp), ← partsOf_snoc m l pdu seq hs hd,
    if_neg (fun h => hc ((covered_parts m _).2 h))]
  exact ⟨wait_pending to _ m _ rfl, rfl⟩

/-- The last segment. -/
theorem seg_last (to : Bool) (m : Ident) (v : View) (l : List TPDU) (pdu : TPDU) (seq : Nat) (hs : SegmentOf m seq pdu)
    (hv : Pending m l v) (hd : firstOf m l seq = none) (hc : Covered m (l ++ [pdu])) :
    (Reassembly.segment to m.count v seq pdu).1.pending = none ∧ (Reassembly.segment to m.count v seq pdu).1.closed = false ∧
      (Reassembly.segment to m.count v seq pdu).2 = .returned (partsOf m (l ++ [pdu])) none := by
  obtain ⟨clock, hp, hr⟩ := hv.parts
  unfold Reassembly.segment
  rw [hv.opened, hp]
  simp only [Bool.false_eq_true, if_false]
  rw [received_iff m l seq hs.1.pos hs.1.le, hd, if_neg (by simp), hr, if_neg (by simp), ← partsOf_snoc m l pdu seq hs hd,
    if_pos ((covered_parts m _).1 hc)]
  exact ⟨rfl, rfl, rfl⟩

theorem covered_mono {m : Ident} {l : List TPDU} (x : TPDU) (h : Covered m l) : Covered m (l ++ [x]) := by
  intro seq h1 h2
  have := h seq h1 h2
  rw [firstOf_snoc]
  cases hf : firstOf m l seq with
  | none => exact absurd hf this
  | some y => simp

theorem not_covered_single {m : Ident} {pdu : TPDU} {seq : Nat} (h : SegmentOf m seq pdu) : ¬ Covered m [pdu] := by
  intro hc
  have h2 := h.1.multi
  have hso := segOf_some.2 h
  have h3 := hc 1 (by omega) (by omega)
  have h4 := hc 2 (by omega) (by omega)
  unfold firstOf at h3 h4
  simp [hso] at h3 h4
  omega

/-- The state after segments that do not make up the whole message. -/
theorem run_pending (to ha : Bool) (m : Ident) (v : View) (hc : v.closed = false) (hp : v.pending = none) :
    ∀ (k : Nat) (l : List TPDU), l.length = k → l ≠ [] → AllOf m l → ¬ Covered m l →
      Pending m l (Reassembly.run to ha m.count v (l.map (inp m))).1 := by
  intro k
  induction k with
  | zero => intro l hl hne; exact absurd (List.length_eq_zero_iff.1 hl) hne
  | succ k ih =>
    intro l hl hne hall hcov
    obtain ⟨l', pdu, rfl⟩ : ∃ l' pdu, l = l' ++ [pdu] := by
      rcases List.eq_nil_or_concat l with h | ⟨l', pdu, h⟩
      · exact absurd h hne
      · exact ⟨l', pdu, by simpa using h⟩
    rw [List.map_append, List.map_cons, List.map_nil, rrun_snoc]
    obtain ⟨seq, hs⟩ := hall pdu (by simp)
    have hso := segOf_some.2 hs
    have hinp : inp m pdu = .segment seq pdu := by unfold inp; rw [hso]; rfl
    rw [hinp]
    show Pending m _ (Reassembly.segment to m.count _ seq pdu).1
    by_cases hl' : l' = []
    · subst hl'
      exact (seg_first to m _ pdu seq hs hc hp).1
    · have hv := ih l' (by simpa using hl) hl' (fun q hq => hall q (by simp [hq])) (fun h => hcov (covered_mono pdu h))
      by_cases hd : firstOf m l' seq = none
      · exact (seg_more to m _ l' pdu seq hs hv hd hcov).1
      · rw [seg_dup to m _ l' pdu seq hs hv hd]
        refine ⟨hv.opened, ?_⟩
        obtain ⟨clock, h1, h2⟩ := hv.parts
        refine ⟨clock, ?_, h2⟩
        rw [h1]
        have : partsOf m (l' ++ [pdu]) = partsOf m l' := by
          unfold partsOf
          apply List.map_congr_left
          intro j _
          rw [firstOf_snoc]
          by_cases hj : segOf m pdu = some (j + 1)
          · rw [hso] at hj
            cases hj
            cases hf : firstOf m l' (j + 1) with
            | none => exact absurd hf hd
            | some y => simp
          · rw [if_neg hj]; simp
        rw [this]

/-- What the next segment results in. -/
theorem run_next (to ha : Bool) (m : Ident) (v : View) (hc : v.closed = false) (hp : v.pending = none) (l : List TPDU)
    (pdu : TPDU) (seq : Nat) (hall : AllOf m l) (hs : SegmentOf m seq pdu) (hcov : ¬ Covered m l) :
    (Reassembly.run to ha m.count v ((l ++ [pdu]).map (inp m))).2 =
      (Reassembly.run to ha m.count v (l.map (inp m))).2 ++
        [if firstOf m l seq ≠ none then .returned [] (some .duplicateSegment)
         else .returned (if ∀ q ∈ partsOf m (l ++ [pdu]), q ≠ none then partsOf m (l ++ [pdu]) else []) none] ∧
    (Covered m (l ++ [pdu]) → (Reassembly.run to ha m.count v ((l ++ [pdu]).map (inp m))).1.pending = none ∧
      (Reassembly.run to ha m.count v ((l ++ [pdu]).map (inp m))).1.closed = false) := by
  rw [List.map_append, List.map_cons, List.map_nil, rrun_snoc]
  have hso := segOf_some.2 hs
  have hinp : inp m pdu = .segment seq pdu := by unfold inp; rw [hso]; rfl
  rw [hinp]
  show _ ++ [(Reassembly.segment to m.count _ seq pdu).2] = _ ∧ (_ → (Reassembly.segment to m.count _ seq pdu).1.pending = none ∧
    (Reassembly.segment to m.count _ seq pdu).1.closed = false)
  by_cases hl : l = []
  · subst hl
    have h1 : ¬ Covered m ([] ++ [pdu]) := not_covered_single hs
    rw [if_neg (by simp [firstOf]), if_neg (fun h => h1 ((covered_parts m _).2 h))]
    exact ⟨congrArg (fun r => [r]) (seg_first to m v pdu seq hs hc hp).2, fun h => absurd h h1⟩
  · have hv := run_pending to ha m v hc hp l.length l rfl hl hall hcov
    by_cases hd : firstOf m l seq = none
    · rw [if_neg (by simp [hd])]
      by_cases hcov' : Covered m (l ++ [pdu])
      · obtain ⟨h1, h2, h3⟩ := seg_last to m _ l pdu seq hs hv hd hcov'
        rw [if_pos ((covered_parts m _).1 hcov'), h3]
        exact ⟨rfl, fun _ => ⟨h1, h2⟩⟩
      · rw [if_neg (fun h => hcov' ((covered_parts m _).2 h)), (seg_more to m _ l pdu seq hs hv hd hcov').2]
        exact ⟨rfl, fun h => absurd h hcov'⟩
    · rw [if_pos hd, seg_dup to m _ l pdu seq hs hv hd]
      refine ⟨rfl, ?_⟩
      intro hcov'
      refine absurd ?_ hcov
      intro q h1 h2
      have := hcov' q h1 h2
      rw [firstOf_snoc] at this
      by_cases hq : segOf m pdu = some q
      · rw [hso] at hq; cases hq; exact hd
      · rw [if_neg hq] at this; simpa using this

/-! The segments of a message in any order. -/

theorem segs_find {m : Ident} {segs : List TPDU} (h : SegmentsOf m segs) {pdu : TPDU} (hp : pdu ∈ segs) :
    ∃ j : Nat, segs[j]? = some pdu ∧ segOf m pdu = some (j + 1) := by
  obtain ⟨j, hj⟩ := List.mem_iff_getElem?.1 hp
  exact ⟨j, hj, segOf_some.2 (h.seg j pdu hj)⟩

theorem segs_nodup {m : Ident} {segs : List TPDU} (h : SegmentsOf m segs) : (segs.map (segOf m)).Nodup := by
  have : segs.map (segOf m) = (List.range segs.length).map (fun j => some (j + 1)) := by
    apply List.ext_getElem?
    intro j
    rw [List.getElem?_map, List.getElem?_map]
    by_cases hj : j < segs.length
    · rw [List.getElem?_range hj, List.getElem?_eq_getElem hj]
      simp only [Option.map_some, Option.some.injEq]
      exact segOf_some.2 (h.seg j _ (List.getElem?_eq_getElem hj))
    · rw [List.getElem?_eq_none (by omega), List.getElem?_eq_none (by simp; omega)]; rfl
  rw [this]
  unfold List.Nodup
  rw [List.pairwise_map]
  exact List.Pairwise.imp (by intro a b hab he; simp at he; exact hab he) List.nodup_range

theorem firstOf_none {m : Ident} {l : List TPDU} {seq : Nat} : firstOf m l seq = none ↔ ∀ pdu ∈ l, segOf m pdu ≠ some seq := by
  unfold firstOf
  rw [List.find?_eq_none]
  simp

theorem firstOf_some {m : Ident} {l : List TPDU} {seq : Nat} {pdu : TPDU} (h : firstOf m l seq = some pdu) :
    pdu ∈ l ∧ segOf m pdu = some seq := by
  unfold firstOf at h
  exact ⟨List.mem_of_find?_eq_some h, by simpa using List.find?_some h⟩

theorem perm_parts {m : Ident} {segs arrival : List TPDU} (h : SegmentsOf m segs) (hp : arrival.Perm segs) :
    partsOf m arrival = segs.map some := by
  apply List.ext_getElem?
  intro j
  by_cases hj : j < m.count
  · rw [partsOf_get m _ j hj, List.getElem?_map]
    have hj' : j < segs.length := by rw [h.count]; exact hj
    rw [List.getElem?_eq_getElem hj']
    have hs := segOf_some.2 (h.seg j _ (List.getElem?_eq_getElem hj'))
    cases hf : firstOf m arrival (j + 1) with
    | none =>
      exact absurd hs (firstOf_none.1 hf _ (hp.mem_iff.2 (List.getElem_mem hj')))
    | some pdu =>
      obtain ⟨h1, h2⟩ := firstOf_some hf
      obtain ⟨j', h3, h4⟩ := segs_find h (hp.mem_iff.1 h1)
      rw [h2] at h4
      have : j' = j := by have := Option.some.inj h4; omega
      subst this
      rw [List.getElem?_eq_getElem hj'] at h3
      simp only [Option.map_some, Option.some.injEq]
      exact (Option.some.inj h3).symm
  · rw [List.getElem?_eq_none (by rw [partsOf_length]; omega), List.getElem?_eq_none (by simp; have := h.count; omega)]

theorem perm_covered {m : Ident} {segs arrival : List TPDU} (h : SegmentsOf m segs) (hp : arrival.Perm segs) :
    Covered m arrival := by
  rw [covered_parts, perm_parts h hp]
  intro q hq
  obtain ⟨x, _, rfl⟩ := List.mem_map.1 hq
  simp

theorem prefix_not_covered {m : Ident} {l : List TPDU} {pdu : TPDU} {rest : List TPDU} {seq : Nat} (hs : segOf m pdu = some seq)
    (hnd : ((l ++ pdu :: rest).map (segOf m)).Nodup) : firstOf m l seq = none := by
  rw [firstOf_none]
  intro q hq he
  rw [List.map_append, List.map_cons] at hnd
  have := (List.nodup_append.1 hnd).2.2 (segOf m q) (List.mem_map.2 ⟨q, hq, rfl⟩) (segOf m pdu) (by simp)
  exact this (he.trans hs.symm)

/-- The results of the arrival of all segments, in any order. -/
theorem run_perm (to ha : Bool) (m : Ident) (v : View) (hc : v.closed = false) (hp : v.pending = none)
    {segs arrival : List TPDU} (h : SegmentsOf m segs) (hperm : arrival.Perm segs) :
    (Reassembly.run to ha m.count v (arrival.map (inp m))).2 =
      List.replicate (m.count - 1) (.returned [] none) ++ [.returned (segs.map some) none] ∧
    (Reassembly.run to ha m.count v (arrival.map (inp m))).1.pending = none ∧
    (Reassembly.run to ha m.count v (arrival.map (inp m))).1.closed = false := by
  have hnd : (arrival.map (segOf m)).Nodup := (hperm.map (segOf m)).nodup_iff.2 (segs_nodup h)
  have hall : AllOf m arrival := by
    intro pdu hpdu
    obtain ⟨j, _, h2⟩ := segs_find h (hperm.mem_iff.1 hpdu)
    exact ⟨j + 1, segOf_some.1 h2⟩
  have hlen : arrival.length = m.count := by rw [hperm.length_eq, h.count]
  -- prefixes
  have pre : ∀ (k : Nat) (l rest : List TPDU), l.length = k → arrival = l ++ rest → rest ≠ [] →
      ¬ Covered m l ∧ (Reassembly.run to ha m.count v (l.map (inp m))).2 = List.replicate k (.returned [] none) := by
    intro k
    induction k with
    | zero =>
      intro l rest hl _ _
      have := List.length_eq_zero_iff.1 hl
      subst this
      exact ⟨fun hcov => hcov 1 (by omega) (by have := h.multi; omega) rfl, rfl⟩
    | succ k ih =>
      intro l rest hl he hne
      obtain ⟨l', pdu, rfl⟩ : ∃ l' pdu, l = l' ++ [pdu] := by
        rcases List.eq_nil_or_concat l with h | ⟨l', pdu, h⟩
        · subst h; simp at hl
        · exact ⟨l', pdu, by simpa using h⟩
      obtain ⟨h1, h2⟩ := ih l' (pdu :: rest) (by simpa using hl) (by simpa using he) (by simp)
      have hall' : AllOf m l' := fun q hq => hall q (by rw [he]; simp [hq])
      obtain ⟨seq, hs⟩ := hall pdu (by rw [he]; simp)
      have hfo : firstOf m l' seq = none := prefix_not_covered (segOf_some.2 hs) (rest := rest) (by rw [he] at hnd; simpa using hnd)
      have hnc : ¬ Covered m (l' ++ [pdu]) := by
        cases rest with
        | nil => exact absurd rfl hne
        | cons x rest =>
          obtain ⟨sx, hx⟩ := hall x (by rw [he]; simp)
          have := prefix_not_covered (segOf_some.2 hx) (l := l' ++ [pdu]) (rest := rest) (by rw [he] at hnd; simpa using hnd)
          intro hcov
          exact hcov sx hx.1.pos hx.1.le this
      refine ⟨hnc, ?_⟩
      rw [(run_next to ha m v hc hp l' pdu seq hall' hs h1).1, h2, if_neg (by simp [hfo]), if_neg (by rw [← covered_parts]; exact hnc),
        List.replicate_succ']
  obtain ⟨l, pdu, he⟩ : ∃ l' pdu, arrival = l' ++ [pdu] := by
    rcases List.eq_nil_or_concat arrival with h' | ⟨l', pdu, h'⟩
    · subst h'; have := h.multi; simp at hlen; omega
    · exact ⟨l', pdu, by simpa using h'⟩
  obtain ⟨h1, h2⟩ := pre l.length l [pdu] rfl he (by simp)
  obtain ⟨seq, hs⟩ := hall pdu (by rw [he]; simp)
  have hall' : AllOf m l := fun q hq => hall q (by rw [he]; simp [hq])
  have hfo : firstOf m l seq = none := prefix_not_covered (segOf_some.2 hs) (rest := []) (by rw [he] at hnd; exact hnd)
  obtain ⟨h3, h4⟩ := run_next to ha m v hc hp l pdu seq hall' hs h1
  have hcov : Covered m (l ++ [pdu]) := he ▸ perm_covered h hperm
  rw [← he] at h3 h4 hcov
  refine ⟨?_, h4 hcov⟩
  rw [h3, h2, if_neg (by simp [hfo]), if_pos ((covered_parts m _).1 hcov), perm_parts h hperm]
  have : l.length = m.count - 1 := by rw [← hlen, he]; simp
  rw [this]

end Verif.Proofs.Coll
