import Verif.Proofs.Reasm
import Verif.Proofs.CollHist

/-! Segments of messages arriving at a Collector. -/

namespace Verif.Proofs.Coll
open Verif.Model Verif.Model.Collector Verif.Spec Verif.Proofs
open Verif.Spec.Reassembly (Parts Input Result View Clock)

theorem view_idle {k : Bytes} {s : State} (hi : Inv s) (h : (view k s).pending = none) : s.pipes.lookup k = none := by
  cases hl : s.pipes.lookup k with
  | none => rfl
  | some p =>
    obtain ⟨pipe, hp, _⟩ := hi.cur k p hl
    rw [view_pending hl hp] at h; cases h

/-- A message sees all of a history made up of its segments. -/
theorem watch_all (m : Ident) : ∀ (l : List TPDU) {s s' : State} {os : List Output}, AllOf m l →
    run s (l.map .collect) = .ok (s', os) →
    (watch m s (l.map .collect)).map (·.1) = l.map (inp m) ∧ (watch m s (l.map .collect)).map (·.2) = os.map result := by
  intro l
  induction l with
  | nil => intro s s' os _ h; cases h; exact ⟨rfl, rfl⟩
  | cons pdu l ih =>
    intro s s' os hall h
    simp only [List.map_cons] at h ⊢
    unfold run at h
    obtain ⟨⟨s1, o⟩, h1, h⟩ := bind_eq_ok.1 h
    obtain ⟨⟨s2, os2⟩, h2, h⟩ := bind_eq_ok.1 h
    cases h
    obtain ⟨i1, i2⟩ := ih (fun q hq => hall q (by simp [hq])) h2
    unfold watch
    rw [h1]
    simp only
    obtain ⟨seq, hs⟩ := hall pdu (by simp)
    have hso := segOf_some.2 hs
    unfold seen
    simp only [hso, Option.map_some, Option.toList_some, List.cons_append, List.nil_append, List.map_cons, i1, i2]
    refine ⟨?_, trivial⟩
    unfold inp
    rw [hso]; rfl

theorem watch_cons {m : Ident} {s s1 : State} {e : Event} {o : Output} (h : step s e = .ok (s1, o)) (es : List Event) :
    watch m s (e :: es) = ((seen m s e).map (fun i => (i, result o))).toList ++ watch m s1 es := by
  rw [watch, h]

theorem segmentOf_fine {m : Ident} {seq : Nat} {pdu : TPDU} (h : SegmentOf m seq pdu) : Fine pdu := fun _ => h.2.1

/-- What results of a message count as deliveries of it. -/
def whole (rs : List Result) : List Parts :=
  rs.filterMap (fun r => match r with | .returned p _ => if p ≠ [] then some p else none | _ => none)

theorem deliveries_cons (m : Ident) (o : Output) (os : List Output) : deliveries m (o :: os) = deliveries m [o] ++ deliveries m os := by
  unfold deliveries
  rw [← List.filterMap_append]
  rfl

theorem whole_append (a b : List Result) : whole (a ++ b) = whole a ++ whole b := by
  unfold whole; rw [List.filterMap_append]

theorem pdus_nil {d : List (Option Ptr)} : pdus d = [] ↔ d = [] := by
  unfold pdus; exact List.map_eq_nil_iff

/-- A step delivers a message only as the result of the message's own segment. -/
theorem deliveries_step {s s' : State} (hi : Inv s) {e : Event} (he : FineEvent e) {o : Output} (h : step s e = .ok (s', o))
    (m : Ident) : deliveries m [o] = whole (((seen m s e).map (fun _ => result o)).toList) := by
  cases e with
  | collect pdu =>
    obtain ⟨s1, o1, h1, h2⟩ := collect_outcome s hi pdu he
    have h : Collect s pdu = .ok (s', o) := h
    rw [h] at h1
    cases h1
    unfold seen
    simp only [Option.map_map]
    have hnil : ∀ er, o = .returned [] er → deliveries m [o] = whole ((Option.map (fun _ => result o) (segOf m pdu)).toList) := by
      rintro er rfl
      cases segOf m pdu <;> simp [deliveries, whole, result, pdus]
    cases h2 with
    | closed => exact hnil _ rfl
    | range => exact hnil _ rfl
    | dup => exact hnil _ rfl
    | join => exact hnil _ rfl
    | fresh => exact hnil _ rfl
    | single hc hm =>
      have : segOf m pdu = none := by
        cases hs : segOf m pdu with
        | none => rfl
        | some seq =>
          have := segOf_some.1 hs
          exact absurd ⟨_, this.1.info, this.1.multi⟩ hm
      simp only [this, Option.map_none, Option.toList_none]
      simp [deliveries, whole, this]
    | last k n j p pipe timers hc hk hl hp hj hlen hst hfr =>
      obtain ⟨pipe', hp', hok, hinc, _⟩ := hi.cur k p hl
      rw [hp] at hp'; cases hp'
      have hok' : PipeOk k (fill pipe j ⟨s.calls, pdu⟩) := by
        exact pipeOk_fill hok.frags hok.seg hj hlen hk
      have hlt := get_lt hj
      have hpos : (fill pipe j ⟨s.calls, pdu⟩).segments ≠ [] := by
        intro e
        have : (fill pipe j ⟨s.calls, pdu⟩).segments.length = pipe.segments.length := by simp [fill]
        rw [e] at this
        simp at this; omega
      have hown : (fill pipe j ⟨s.calls, pdu⟩).segments[j]? = some (some ⟨s.calls, pdu⟩) := by
        simp [fill, hlt]
      have hfull : (fill pipe j ⟨s.calls, pdu⟩).frags = (fill pipe j ⟨s.calls, pdu⟩).segments.length := by
        simp [fill, hlen, hfr]
      obtain ⟨m', hm', hks, _⟩ := of_segK hk
      cases hs : segOf m pdu with
      | none =>
        simp only [Option.map_none, Option.toList_none]
        unfold deliveries
        simp only [List.filterMap_cons, List.filterMap_nil]
        rw [if_neg]
        · rfl
        · rintro ⟨_, hall⟩
          obtain ⟨ptr, h1, h2⟩ := hall _ (List.mem_of_getElem? hown)
          cases h1
          rw [hs] at h2; cases h2
      | some seq =>
        simp only [Option.map_some, Option.toList_some]
        have hmk := segK_of (segOf_some.1 hs)
        obtain ⟨hkm, _, _⟩ := segK_inj hk hmk
        unfold deliveries
        simp only [List.filterMap_cons, List.filterMap_nil]
        rw [if_pos]
        · simp [whole, result, pdus_nil, hpos]
        · refine ⟨hpos, ?_⟩
          intro q hq
          obtain ⟨i, hi'⟩ := List.mem_iff_getElem?.1 hq
          obtain ⟨ptr, hptr⟩ := slot_full hok' hfull i (get_lt hi')
          rw [hptr] at hi'; cases hi'
          refine ⟨ptr, rfl, ?_⟩
          have hsk := hok'.seg i ptr hptr
          rw [hkm] at hsk
          cases hso : segOf m ptr.pdu with
          | some _ => rfl
          | none => exact absurd ⟨_, _, hsk⟩ (segOf_none hso)
  | fire i => cases h; cases hs : seen m s (.fire i) <;> simp [deliveries, whole, result]
  | expire i => cases h; cases hs : seen m s (.expire i) <;> simp [deliveries, whole, result]
  | handle i =>
    have h : (Except.ok (handle s i) : M _) = .ok (s', o) := h
    have h := congrArg Prod.snd (Except.ok.inj h)
    simp only at h
    have : o = .silent ∨ ∃ d, o = .handled d := by
      subst h
      unfold handle
      split
      · split
        · simp only
          split
          · exact .inr ⟨_, rfl⟩
          · exact .inl rfl
        · exact .inl rfl
      · exact .inl rfl
    rcases this with rfl | ⟨d, rfl⟩ <;> cases hs : seen m s (.handle i) <;> simp [deliveries, whole, result]
  | close => cases h; cases hs : seen m s .close <;> simp [deliveries, whole, result]

theorem deliveries_watch (m : Ident) : ∀ (es : List Event) {s s' : State} {os : List Output}, Inv s → (∀ e ∈ es, FineEvent e) →
    run s es = .ok (s', os) → deliveries m os = whole ((watch m s es).map (·.2)) := by
  intro es
  induction es with
  | nil => intro s s' os _ _ h; cases h; rfl
  | cons e es ih =>
    intro s s' os hi hf h
    unfold run at h
    obtain ⟨⟨s1, o⟩, h1, h⟩ := bind_eq_ok.1 h
    obtain ⟨⟨s2, os2⟩, h2, h⟩ := bind_eq_ok.1 h
    cases h
    obtain ⟨s1', o', g1, g2, _⟩ := step_ok hi (hf e List.mem_cons_self)
    rw [h1] at g1; cases g1
    rw [deliveries_cons, deliveries_step hi (hf e List.mem_cons_self) h1 m, ih g2 (fun e' he' => hf e' (List.mem_cons_of_mem _ he')) h2]
    rw [watch_cons h1, List.map_append, whole_append]
    congr 1
    cases seen m s e <;> rfl

/-- The segments a message sees are those of it that are collected. -/
theorem watch_segments (m : Ident) : ∀ (es : List Event) {s s' : State} {os : List Output},
    run s es = .ok (s', os) → (∀ i r, (i, r) ∈ watch m s es → ∃ seq pdu, i = .segment seq pdu) →
    (watch m s es).map (·.1) = ((collected es).filter (fun pdu => (segOf m pdu).isSome)).map (inp m) := by
  intro es
  induction es with
  | nil => intro s s' os h _; cases h; rfl
  | cons e es ih =>
    intro s s' os h hseg
    unfold run at h
    obtain ⟨⟨s1, o⟩, h1, h⟩ := bind_eq_ok.1 h
    obtain ⟨⟨s2, os2⟩, h2, h⟩ := bind_eq_ok.1 h
    cases h
    rw [watch_cons h1] at hseg ⊢
    have ih' := ih h2 (fun i r hir => hseg i r (List.mem_append_right _ hir))
    rw [List.map_append, ih']
    cases e with
    | collect pdu =>
      have : collected (.collect pdu :: es) = pdu :: collected es := rfl
      rw [this]
      unfold seen
      simp only
      cases hs : segOf m pdu with
      | none => simp [hs]
      | some seq => simp [hs, inp]
    | fire i =>
      have : collected (.fire i :: es) = collected es := rfl
      rw [this]
      cases hs : seen m s (.fire i) with
      | none => rfl
      | some x =>
        rw [hs] at hseg
        obtain ⟨seq, pdu, rfl⟩ := hseg x (result o) (List.mem_append_left _ (by simp))
        unfold seen at hs
        simp at hs
    | expire i =>
      have : collected (.expire i :: es) = collected es := rfl
      rw [this]
      cases hs : seen m s (.expire i) with
      | none => rfl
      | some x =>
        rw [hs] at hseg
        obtain ⟨seq, pdu, rfl⟩ := hseg x (result o) (List.mem_append_left _ (by simp))
        unfold seen at hs
        simp at hs
    | handle i =>
      have : collected (.handle i :: es) = collected es := rfl
      rw [this]
      cases hs : seen m s (.handle i) with
      | none => rfl
      | some x =>
        rw [hs] at hseg
        obtain ⟨seq, pdu, rfl⟩ := hseg x (result o) (List.mem_append_left _ (by simp))
        unfold seen at hs
        simp at hs
    | close =>
      obtain ⟨seq, pdu, h⟩ := hseg .close (result o) (List.mem_append_left _ (by simp [seen]))
      cases h

end Verif.Proofs.Coll
