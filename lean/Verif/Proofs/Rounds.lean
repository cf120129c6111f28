import Verif.Spec.Rounds
import Verif.Proofs.CollMany

/-! Segments that arrive more than once. -/

namespace Verif.Proofs.Coll
open Verif.Model Verif.Model.Collector Verif.Spec Verif.Proofs
open Verif.Spec.Reassembly (Parts Input Result View Clock)

/-- A view in which exactly `l` has arrived since the message was last complete. -/
def At (m : Ident) (l : List TPDU) (v : View) : Prop :=
  v.closed = false ∧ ((l = [] ∧ v.pending = none) ∨ (l ≠ [] ∧ Pending m l v))

theorem not_covered_nil {m : Ident} (h : 2 ≤ m.count) : ¬ Covered m [] := fun hc => hc 1 (by omega) (by omega) rfl

/-- A repeated number changes nothing. -/
theorem partsOf_dup (m : Ident) (l : List TPDU) (pdu : TPDU) (seq : Nat) (hso : segOf m pdu = some seq)
    (hd : firstOf m l seq ≠ none) : partsOf m (l ++ [pdu]) = partsOf m l := by
  unfold partsOf
  apply List.map_congr_left
  intro j _
  rw [firstOf_snoc]
  by_cases hj : segOf m pdu = some (j + 1)
  · rw [hso] at hj
    cases hj
    cases hf : firstOf m l (j + 1) with
    | none => exact absurd hf hd
    | some y => simp
  · rw [if_neg hj]; simp

theorem firstOf_mem {m : Ident} {l : List TPDU} {pdu : TPDU} {seq : Nat} (hso : segOf m pdu = some seq) :
    firstOf m l seq ≠ none ↔ ∃ q ∈ l, segOf m q = segOf m pdu := by
  rw [ne_eq, firstOf_none, hso]
  constructor
  · intro h
    apply Classical.byContradiction
    intro hn
    exact h (fun q hq he => hn ⟨q, hq, he⟩)
  · rintro ⟨q, hq, he⟩ h
    exact h q hq he

/-- One more segment. -/
theorem round_step (to : Bool) (m : Ident) (v : View) (l : List TPDU) (pdu : TPDU) (seq : Nat) (hs : SegmentOf m seq pdu)
    (hv : At m l v) (hc : ¬ Covered m l) :
    (Covered m (l ++ [pdu]) → At m [] (Reassembly.segment to m.count v seq pdu).1 ∧
      (Reassembly.segment to m.count v seq pdu).2 = .returned (partsOf m (l ++ [pdu])) none) ∧
    (¬ Covered m (l ++ [pdu]) → At m (l ++ [pdu]) (Reassembly.segment to m.count v seq pdu).1 ∧
      (Reassembly.segment to m.count v seq pdu).2 =
        .returned [] (if ∃ q ∈ l, segOf m q = segOf m pdu then some .duplicateSegment else none)) := by
  have hso := segOf_some.2 hs
  obtain ⟨hcl, ⟨rfl, hp⟩ | ⟨hne, hv⟩⟩ := hv
  · obtain ⟨h1, h2⟩ := seg_first to m v pdu seq hs hcl hp
    refine ⟨fun h => absurd h (not_covered_single hs), fun _ => ?_⟩
    rw [if_neg (by simp)]
    exact ⟨⟨h1.opened, .inr ⟨by simp, h1⟩⟩, h2⟩
  · by_cases hd : firstOf m l seq = none
    · constructor
      · intro hcov
        obtain ⟨h1, h2, h3⟩ := seg_last to m v l pdu seq hs hv hd hcov
        exact ⟨⟨h2, .inl ⟨rfl, h1⟩⟩, h3⟩
      · intro hcov
        obtain ⟨h1, h2⟩ := seg_more to m v l pdu seq hs hv hd hcov
        rw [if_neg (fun h => (firstOf_mem hso).2 h hd)]
        exact ⟨⟨h1.opened, .inr ⟨by simp, h1⟩⟩, h2⟩
    · have he := partsOf_dup m l pdu seq hso hd
      have hn : ¬ Covered m (l ++ [pdu]) := by rw [covered_parts, he, ← covered_parts]; exact hc
      refine ⟨fun h => absurd h hn, fun _ => ?_⟩
      rw [seg_dup to m v l pdu seq hs hv hd, if_pos ((firstOf_mem hso).1 hd)]
      refine ⟨⟨hcl, .inr ⟨by simp, hv.opened, ?_⟩⟩, rfl⟩
      rw [he]
      exact hv.parts

/-- The message on its own. -/
theorem rounds_run (to ha : Bool) (m : Ident) (hm : 2 ≤ m.count) : ∀ (l since : List TPDU) (v : View), AllOf m l →
    ¬ Covered m since → At m since v →
    (Reassembly.run to ha m.count v (l.map (inp m))).2 = (rounds m since l).1.map (fun r => .returned r.1 r.2) ∧
    At m (rounds m since l).2 (Reassembly.run to ha m.count v (l.map (inp m))).1 ∧ ¬ Covered m (rounds m since l).2 := by
  intro l
  induction l with
  | nil => intro since v _ hc hv; exact ⟨rfl, hv, hc⟩
  | cons pdu l ih =>
    intro since v hall hc hv
    obtain ⟨seq, hs⟩ := hall pdu (by simp)
    have hso := segOf_some.2 hs
    have hinp : inp m pdu = .segment seq pdu := by unfold inp; rw [hso]; rfl
    obtain ⟨h1, h2⟩ := round_step to m v since pdu seq hs hv hc
    have hall' : AllOf m l := fun q hq => hall q (by simp [hq])
    simp only [List.map_cons, Reassembly.run, rounds, hinp]
    show (Reassembly.segment to m.count v seq pdu).2 :: _ = _ ∧ _
    by_cases hcov : Covered m (since ++ [pdu])
    · obtain ⟨a1, a2⟩ := h1 hcov
      obtain ⟨i1, i2, i3⟩ := ih [] _ hall' (not_covered_nil hm) a1
      rw [if_pos ((covered_parts m _).1 hcov), a2]
      exact ⟨by simp only [List.map_cons]; rw [← i1]; rfl, i2, i3⟩
    · obtain ⟨a1, a2⟩ := h2 hcov
      obtain ⟨i1, i2, i3⟩ := ih _ _ hall' hcov a1
      rw [if_neg (fun h => hcov ((covered_parts m _).2 h)), a2]
      exact ⟨by simp only [List.map_cons]; rw [← i1]; rfl, i2, i3⟩

/-- The answers to the segments of a message are what the message sees. -/
theorem watch_answers (m : Ident) : ∀ (l : List TPDU) {s s' : State} {os : List Output},
    run s (l.map .collect) = .ok (s', os) → (watch m s (l.map .collect)).map (·.2) = answers m l os := by
  intro l
  induction l with
  | nil => intro s s' os h; cases h; rfl
  | cons pdu l ih =>
    intro s s' os h
    simp only [List.map_cons] at h ⊢
    unfold run at h
    obtain ⟨⟨s1, o⟩, h1, h⟩ := bind_eq_ok.1 h
    obtain ⟨⟨s2, os2⟩, h2, h⟩ := bind_eq_ok.1 h
    cases h
    rw [watch_cons h1, List.map_append, ih h2]
    unfold answers seen
    simp only [List.zip_cons_cons]
    cases hs : segOf m pdu with
    | none => simp [hs]
    | some seq => simp [hs]

theorem rounds_cons_covered {m : Ident} {since : List TPDU} {pdu : TPDU} {l : List TPDU} (h : Covered m (since ++ [pdu])) :
    rounds m since (pdu :: l) = ((partsOf m (since ++ [pdu]), none) :: (rounds m [] l).1, (rounds m [] l).2) := by
  rw [rounds, if_pos ((covered_parts m _).1 h)]

theorem rounds_cons_not {m : Ident} {since : List TPDU} {pdu : TPDU} {l : List TPDU} (h : ¬ Covered m (since ++ [pdu])) :
    rounds m since (pdu :: l) =
      (([], if ∃ q ∈ since, segOf m q = segOf m pdu then some .duplicateSegment else none) :: (rounds m (since ++ [pdu]) l).1,
        (rounds m (since ++ [pdu]) l).2) := by
  rw [rounds, if_neg (fun h' => h ((covered_parts m _).2 h'))]

/-- The answers that are the message. -/
def full (rs : List (Parts × Option Err)) : List Parts := (rs.map (·.1)).filter (fun d => d ≠ [])

theorem whole_full (rs : List (Parts × Option Err)) : whole (rs.map (fun r => .returned r.1 r.2)) = full rs := by
  induction rs with
  | nil => rfl
  | cons r rs ih =>
    have : whole ((r :: rs).map (fun r => Result.returned r.1 r.2)) =
        whole [Result.returned r.1 r.2] ++ whole (rs.map (fun r => .returned r.1 r.2)) := by
      rw [List.map_cons, ← whole_append]; rfl
    rw [this, ih]
    unfold full whole
    by_cases h : r.1 = [] <;> simp [h]

theorem parts_ne {m : Ident} (hm : 2 ≤ m.count) (l : List TPDU) : partsOf m l ≠ [] := by
  intro e
  have := partsOf_length m l
  rw [e] at this
  simp at this; omega

theorem full_cons_covered {m : Ident} (hm : 2 ≤ m.count) {since : List TPDU} {pdu : TPDU} {l : List TPDU}
    (h : Covered m (since ++ [pdu])) :
    full (rounds m since (pdu :: l)).1 = partsOf m (since ++ [pdu]) :: full (rounds m [] l).1 := by
  rw [rounds_cons_covered h]
  unfold full
  simp [parts_ne hm]

theorem full_cons_not {m : Ident} {since : List TPDU} {pdu : TPDU} {l : List TPDU}
    (h : ¬ Covered m (since ++ [pdu])) : full (rounds m since (pdu :: l)).1 = full (rounds m (since ++ [pdu]) l).1 := by
  rw [rounds_cons_not h]
  unfold full
  simp

theorem rounds_err (m : Ident) : ∀ (l since : List TPDU), ∀ r ∈ (rounds m since l).1, ∀ err, r.2 = some err →
    err = .duplicateSegment := by
  intro l
  induction l with
  | nil => intro since r hr; cases hr
  | cons pdu l ih =>
    intro since r hr err he
    by_cases hcov : Covered m (since ++ [pdu])
    · rw [rounds_cons_covered hcov] at hr
      rcases List.mem_cons.1 hr with rfl | hr
      · cases he
      · exact ih [] r hr err he
    · rw [rounds_cons_not hcov] at hr
      rcases List.mem_cons.1 hr with rfl | hr
      · simp only at he
        split at he
        · exact (Option.some.inj he).symm
        · cases he
      · exact ih _ r hr err he

/-! Exact repeats. -/

theorem subset_parts {m : Ident} {segs l : List TPDU} (h : SegmentsOf m segs) (hl : ∀ pdu ∈ l, pdu ∈ segs) (hc : Covered m l) :
    partsOf m l = segs.map some := by
  apply List.ext_getElem?
  intro j
  by_cases hj : j < m.count
  · rw [partsOf_get m _ j hj, List.getElem?_map]
    cases hf : firstOf m l (j + 1) with
    | none => exact absurd hf (hc (j + 1) (by omega) (by omega))
    | some pdu =>
      obtain ⟨h1, h2⟩ := firstOf_some hf
      obtain ⟨j', h3, h4⟩ := segs_find h (hl pdu h1)
      rw [h2] at h4
      have : j' = j := by have := Option.some.inj h4; omega
      subst this
      rw [h3]; rfl
  · rw [List.getElem?_eq_none (by rw [partsOf_length]; omega), List.getElem?_eq_none (by simp; have := h.count; omega)]

theorem covered_iff {m : Ident} {segs l : List TPDU} (h : SegmentsOf m segs) (hl : ∀ pdu ∈ l, pdu ∈ segs) :
    Covered m l ↔ ∀ pdu ∈ segs, pdu ∈ l := by
  constructor
  · intro hc pdu hp
    obtain ⟨j, h1, h2⟩ := segs_find h hp
    have hlt := (List.getElem?_eq_some_iff.1 h1).1
    cases hf : firstOf m l (j + 1) with
    | none => exact absurd hf (hc (j + 1) (by omega) (by rw [← h.count]; omega))
    | some q =>
      obtain ⟨h3, h4⟩ := firstOf_some hf
      obtain ⟨j', h5, h6⟩ := segs_find h (hl q h3)
      rw [h4] at h6
      have : j' = j := by have := Option.some.inj h6; omega
      subst this
      rw [h5] at h1
      cases h1
      exact h3
  · intro hall seq h1 h2 hf
    have hlt : seq - 1 < segs.length := by rw [h.count]; omega
    have hg := List.getElem?_eq_getElem hlt
    refine firstOf_none.1 hf _ (hall _ (List.mem_of_getElem? hg)) ?_
    have := segOf_some.2 (h.seg _ _ hg)
    rw [this]
    congr 1; omega

/-- Everything that comes out is the message. -/
theorem rounds_mem {m : Ident} {segs : List TPDU} (h : SegmentsOf m segs) : ∀ (l since : List TPDU),
    (∀ pdu ∈ since ++ l, pdu ∈ segs) → ∀ d ∈ full (rounds m since l).1, d = segs.map some := by
  intro l
  induction l with
  | nil => intro since _ d hd; cases hd
  | cons pdu l ih =>
    intro since hl d hd
    by_cases hcov : Covered m (since ++ [pdu])
    · rw [full_cons_covered h.multi hcov] at hd
      rcases List.mem_cons.1 hd with rfl | hd
      · exact subset_parts h (fun q hq => hl q (by simp at hq ⊢; rcases hq with a | a <;> simp [a])) hcov
      · exact ih [] (fun q hq => hl q (by simp at hq ⊢; simp [hq])) d hd
    · rw [full_cons_not hcov] at hd
      exact ih (since ++ [pdu]) (fun q hq => hl q (by simpa using hq)) d hd

/-- It comes out as often as the rarest of its segments, at most. -/
theorem rounds_le {m : Ident} {segs : List TPDU} (h : SegmentsOf m segs) : ∀ (l since : List TPDU),
    (∀ pdu ∈ since ++ l, pdu ∈ segs) → ∀ pdu ∈ segs, (full (rounds m since l).1).length ≤ (since ++ l).count pdu := by
  intro l
  induction l with
  | nil => intro since _ pdu _; exact Nat.zero_le _
  | cons pdu l ih =>
    intro since hl q hq
    by_cases hcov : Covered m (since ++ [pdu])
    · rw [full_cons_covered h.multi hcov]
      have h1 := ih [] (fun q hq => hl q (by simp at hq ⊢; simp [hq])) q hq
      have h2 := (covered_iff h (fun q hq => hl q (by simp at hq ⊢; rcases hq with a | a <;> simp [a]))).1 hcov q hq
      have h3 := List.count_pos_iff.2 h2
      have : since ++ pdu :: l = (since ++ [pdu]) ++ l := by simp
      rw [this, List.count_append]
      simp only [List.length_cons, List.nil_append] at h1 ⊢
      omega
    · rw [full_cons_not hcov]
      have := ih (since ++ [pdu]) (fun q hq => hl q (by simpa using hq)) q hq
      simpa using this

/-- It comes out if all of it arrives. -/
theorem rounds_pos {m : Ident} (hm : 2 ≤ m.count) : ∀ (l since : List TPDU), ¬ Covered m since → Covered m (since ++ l) →
    full (rounds m since l).1 ≠ [] := by
  intro l
  induction l with
  | nil => intro since h1 h2; exact absurd (by simpa using h2) h1
  | cons pdu l ih =>
    intro since h1 h2
    by_cases hcov : Covered m (since ++ [pdu])
    · rw [full_cons_covered hm hcov]; simp
    · rw [full_cons_not hcov]
      exact ih _ hcov (by simpa using h2)

theorem rounds_idle {m : Ident} (hm : 2 ≤ m.count) : ∀ (l since : List TPDU), full (rounds m since l).1 = [] →
    (rounds m since l).2 = since ++ l := by
  intro l
  induction l with
  | nil => intro since _; simp [rounds]
  | cons pdu l ih =>
    intro since h
    by_cases hcov : Covered m (since ++ [pdu])
    · rw [full_cons_covered hm hcov] at h; cases h
    · rw [full_cons_not hcov] at h
      rw [rounds_cons_not hcov]
      simpa using ih _ h

/-- It comes out once with nothing left over if nothing arrives after it is complete. -/
theorem rounds_once {m : Ident} (hm : 2 ≤ m.count) : ∀ (l since : List TPDU), ¬ Covered m since →
    (((full (rounds m since l).1).length = 1 ∧ (rounds m since l).2 = []) ↔
      (Covered m (since ++ l) ∧ ∀ a pdu b, l = a ++ pdu :: b → ¬ Covered m (since ++ a))) := by
  intro l
  induction l with
  | nil =>
    intro since h
    constructor
    · rintro ⟨h', _⟩; cases h'
    · rintro ⟨h', _⟩; exact absurd (by simpa using h') h
  | cons pdu l ih =>
    intro since h
    by_cases hcov : Covered m (since ++ [pdu])
    · rw [full_cons_covered hm hcov, rounds_cons_covered hcov]
      constructor
      · rintro ⟨h1, h2⟩
        have h1 : full (rounds m [] l).1 = [] := List.length_eq_zero_iff.1 (by simpa using h1)
        simp only at h2
        rw [rounds_idle hm l [] h1] at h2
        have : l = [] := by simpa using h2
        subst this
        refine ⟨hcov, ?_⟩
        intro a q b he
        cases a with
        | nil => simpa using h
        | cons x a => simp at he
      · rintro ⟨_, h2⟩
        cases l with
        | nil => simp [rounds, full]
        | cons x l => exact absurd hcov (h2 [pdu] x l rfl)
    · rw [full_cons_not hcov, rounds_cons_not hcov, ih _ hcov]
      constructor
      · rintro ⟨h1, h2⟩
        refine ⟨by simpa using h1, ?_⟩
        intro a q b he
        cases a with
        | nil => simpa using h
        | cons x a =>
          simp only [List.cons_append, List.cons.injEq] at he
          obtain ⟨rfl, rfl⟩ := he
          simpa using h2 a q b rfl
      · rintro ⟨h1, h2⟩
        refine ⟨by simpa using h1, ?_⟩
        intro a q b he
        subst he
        simpa using h2 (pdu :: a) q b rfl

end Verif.Proofs.Coll
