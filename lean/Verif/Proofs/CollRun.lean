import Verif.Proofs.CollView

/-! Histories of a Collector. -/

namespace Verif.Proofs.Coll
open Verif.Model Verif.Model.Collector Verif.Spec Verif.Proofs
open Verif.Spec.Reassembly (Parts Clock View Input Result)

/-! Timer events as seen by a message. -/

theorem view_timer_other {s : State} {k : Bytes} {i : Nat} {t t' : Timer} (ht : s.timers[i]? = some t)
    (hk : t'.key = t.key) (hne : t.key ≠ k) : view k { s with timers := s.timers.set i t' } = view k s := by
  unfold view
  simp only [View.mk.injEq, and_true]
  rw [sel_set ht hk, if_neg hne]
  refine ⟨?_, rfl⟩
  have : loc k (s.timers.set i t') = loc k s.timers := by funext j; exact loc_set ht hk
  rw [this]

theorem view_timer {s : State} {k : Bytes} {i : Nat} {t t' : Timer} (ht : s.timers[i]? = some t)
    (hk' : t'.key = t.key) (hk : t.key = k) : view k { s with timers := s.timers.set i t' } =
      { view k s with clocks := (view k s).clocks.set (loc k s.timers i) (clock s.heap t') } := by
  unfold view
  simp only [View.mk.injEq, and_true]
  rw [sel_set ht hk', if_pos hk]
  have : loc k (s.timers.set i t') = loc k s.timers := by funext j; exact loc_set ht hk'
  rw [this]
  exact ⟨rfl, List.map_set⟩

theorem view_fire_other (s : State) (k : Bytes) (i : Nat) (h : ∀ t, s.timers[i]? = some t → t.key ≠ k) :
    view k (fire s i) = view k s := by
  unfold fire
  split
  · rename_i t ht
    split
    · exact view_timer_other ht rfl (h t ht)
    · rfl
  · rfl

theorem view_fire {s : State} (hi : Inv s) (to ha : Bool) (n : Nat) {k : Bytes} {i : Nat} {t : Timer} (ht : s.timers[i]? = some t)
    (hk : t.key = k) : Reassembly.step to ha n (view k s) (.fire (loc k s.timers i)) = (view k (fire s i), .silent) := by
  obtain ⟨pp, q1, q2, q3, q4, q5⟩ := hi.tim i t ht
  unfold Reassembly.step fire
  rw [ht]
  simp only
  rw [clocks_get ht hk]
  by_cases hs : t.state = .armed
  · rw [if_pos hs, view_timer ht (by rfl) hk]
    have hl := (q4 hs).1
    rw [hk] at hl
    rw [view_pending hl q1]
    have : clock s.heap t = .counting := by unfold clock; rw [hs]
    rw [this]
    simp only [Prod.mk.injEq, and_true]
    have : clock s.heap { t with state := .fired } = .fired (pdus pp.segments) := by
      show Clock.fired _ = _
      simp only
      rw [q1]; rfl
    rw [this, view_pending hl q1]
  · rw [if_neg hs]
    have : clock s.heap t ≠ .counting := by
      unfold clock
      split <;> simp_all
    generalize clock s.heap t = c at this
    cases hp : (view k s).pending with
    | none => rfl
    | some q =>
      obtain ⟨parts, c'⟩ := q
      cases c with
      | counting => exact absurd rfl this
      | fired _ => rfl
      | expired _ => rfl
      | over => rfl

theorem view_expire_other (s : State) (k : Bytes) (i : Nat) (h : ∀ t, s.timers[i]? = some t → t.key ≠ k) :
    view k (expire s i) = view k s := by
  unfold expire
  split
  · rename_i t ht
    split
    · have hne := h t ht
      generalize hm : (if s.pipes.lookup t.key = some t.pipe then mapDelete s.pipes t.key else s.pipes) = m
      have hlook : m.lookup k = s.pipes.lookup k := by
        rw [← hm]
        split
        · rw [lookup_delete, if_neg (fun e => hne e.symm)]
        · rfl
      have := view_timer_other (k := k) (t' := { t with state := .expired }) ht rfl hne
      rw [← this]
      unfold view
      simp only [View.mk.injEq, and_true]
      rw [hlook]
    · rfl
  · rfl

theorem view_expire {s : State} (hi : Inv s) (to ha : Bool) (n : Nat) {k : Bytes} {i : Nat} {t : Timer} (ht : s.timers[i]? = some t)
    (hk : t.key = k) : Reassembly.step to ha n (view k s) (.expire (loc k s.timers i)) = (view k (expire s i), .silent) := by
  obtain ⟨pp, q1, q2, q3, q4, q5⟩ := hi.tim i t ht
  unfold Reassembly.step expire
  rw [ht]
  simp only
  rw [clocks_get ht hk]
  by_cases hs : t.state = .fired
  · rw [if_pos hs]
    have hc : clock s.heap t = .fired (pdus pp.segments) := by
      unfold clock; rw [hs]; simp only; rw [q1]; rfl
    have hc' : clock s.heap { t with state := .expired } = .expired (pdus pp.segments) := by
      show Clock.expired _ = _
      simp only
      rw [q1]; rfl
    have hcl : pp.cleanup = some i := (q3 (by rw [hs]; simp)).1
    rw [hc]
    simp only [Prod.mk.injEq, and_true]
    have hv := view_timer (k := k) (t' := { t with state := .expired }) ht rfl hk
    have hp : (view k { s with timers := s.timers.set i { t with state := .expired } }).pending = (view k s).pending := by
      rw [hv]
    have hcs : (view k { s with timers := s.timers.set i { t with state := .expired } }).clocks =
        (view k s).clocks.set (loc k s.timers i) (.expired (pdus pp.segments)) := by
      rw [hv, hc']
    rw [← hcs]
    have hiff : (view k s).pending.any (fun q => q.2 = some (loc k s.timers i)) = true ↔ s.pipes.lookup t.key = some t.pipe := by
      constructor
      · intro h
        cases hl : s.pipes.lookup k with
        | none => rw [view_pending_none hl] at h; cases h
        | some p =>
          obtain ⟨p2, a1, a2, a3, a4, a5⟩ := hi.cur k p hl
          rw [view_pending hl a1] at h
          simp only [Option.any_some, decide_eq_true_eq] at h
          cases hc2 : p2.cleanup with
          | none => rw [hc2] at h; cases h
          | some ti =>
            rw [hc2] at h
            simp only [Option.map_some, Option.some.injEq] at h
            obtain ⟨tt, b1, b2⟩ := hi.cl p p2 ti a1 hc2
            have hkk := (cur_key hi hl a1 hc2 b1).1
            have := loc_inj b1 hkk ht hk h
            subst this
            rw [ht] at b1; cases b1
            rw [hk, hl, b2]
      · intro h
        rw [hk] at h
        rw [view_pending h q1, hcl]
        simp
    by_cases hl : s.pipes.lookup t.key = some t.pipe
    · rw [if_pos hl, if_pos (hiff.2 hl)]
      unfold view
      simp only [View.mk.injEq, and_true]
      rw [hk, lookup_delete, if_pos rfl]
      rfl
    · rw [if_neg hl, if_neg (fun h => hl (hiff.1 h)), ← hp]
      rfl
  · rw [if_neg hs]
    have : ∀ x, clock s.heap t ≠ .fired x := by
      intro x
      unfold clock
      split <;> simp_all
    generalize clock s.heap t = c at this
    cases c with
    | counting => rfl
    | fired x => exact absurd rfl (this x)
    | expired _ => rfl
    | over => rfl

theorem view_handle_other (s : State) (k : Bytes) (i : Nat) (h : ∀ t, s.timers[i]? = some t → t.key ≠ k) :
    view k (handle s i).1 = view k s := by
  unfold handle
  split
  · rename_i t ht
    split
    · exact view_timer_other ht rfl (h t ht)
    · rfl
  · rfl

theorem view_handle {s : State} (to : Bool) (n : Nat) {k : Bytes} {i : Nat} {t : Timer} (ht : s.timers[i]? = some t)
    (hk : t.key = k) : Reassembly.step to s.handler n (view k s) (.handle (loc k s.timers i)) =
      (view k (handle s i).1, result (handle s i).2) := by
  unfold Reassembly.step handle
  rw [ht]
  simp only
  rw [clocks_get ht hk]
  by_cases hs : t.state = .expired
  · rw [if_pos hs]
    have hc : clock s.heap t = .expired (pdus (deref s t.pipe)) := by
      unfold clock; rw [hs]; rfl
    rw [hc]
    simp only
    rw [view_timer ht (by rfl) hk]
    have : clock s.heap { t with state := .done } = .over := rfl
    rw [this]
    simp only [Prod.mk.injEq, true_and]
    split <;> rfl
  · rw [if_neg hs]
    have : ∀ x, clock s.heap t ≠ .expired x := by
      intro x
      unfold clock
      split <;> simp_all
    generalize clock s.heap t = c at this
    cases c with
    | counting => rfl
    | fired _ => rfl
    | expired x => exact absurd rfl (this x)
    | over => rfl

theorem close_timers_list {s : State} (hi : Inv s) (hc : s.closed = false) :
    (Close s).timers = s.timers.map (fun t => if t.state = .armed then { t with state := .stopped } else t) := by
  apply List.ext_getElem?
  intro i
  rw [close_timers hi hc, List.getElem?_map]

theorem view_close {s : State} (hi : Inv s) (to ha : Bool) (n : Nat) (k : Bytes) :
    Reassembly.step to ha n (view k s) .close = (view k (Close s), .silent) := by
  unfold Reassembly.step
  rcases Bool.eq_false_or_eq_true s.closed with hc | hc
  · have : Close s = s := by unfold Close; rw [if_pos hc]
    rw [this, if_pos (show (view k s).closed = true from hc)]
    unfold view
    rw [hc]
  · have e1 : (Close s).pipes = s.pipes := by unfold Close; split <;> rfl
    have e2 : (Close s).heap = s.heap := by unfold Close; split <;> rfl
    have e5 : (Close s).closed = true := by unfold Close; rw [hc]; rfl
    rw [if_neg (by rw [show (view k s).closed = s.closed from rfl, hc]; simp)]
    have hkey : ∀ t : Timer, (if t.state = .armed then { t with state := .stopped } else t : Timer).key = t.key := by
      intro t; split <;> rfl
    have hsel : ∀ l : List Timer, sel k (l.map (fun t => if t.state = .armed then { t with state := .stopped } else t)) =
        (sel k l).map (fun t => if t.state = .armed then { t with state := .stopped } else t) := by
      intro l
      unfold sel
      rw [List.filter_map]
      congr 1
      apply List.filter_congr
      intro t _
      show decide (_ = k) = decide (t.key = k)
      simp only [hkey]
    have hloc : loc k (Close s).timers = loc k s.timers := by
      funext i
      unfold loc
      rw [close_timers_list hi hc, ← List.map_take, hsel, List.length_map]
    unfold view
    simp only [Prod.mk.injEq, View.mk.injEq, and_true]
    rw [e1, e2, e5, hloc, close_timers_list hi hc, hsel]
    refine ⟨rfl, ?_, rfl⟩
    rw [List.map_map, List.map_map]
    apply List.map_congr_left
    intro t _
    simp only [Function.comp_apply]
    unfold clock
    cases hst : t.state <;> simp [hst]

/-! Messages and keys. -/

theorem segK_of {m : Ident} {seq : Nat} {pdu : TPDU} (h : SegmentOf m seq pdu) : SegK (keyOf m) m.count (seq - 1) pdu := by
  obtain ⟨h1, h2, h3, h4⟩ := h
  refine ⟨m.ref, ?_, ?_⟩
  · have := h1.pos
    rw [show seq - 1 + 1 = seq by omega]; exact h1
  · rw [Key.pduKey_supported _ _ _ h2, h3, h4]; rfl

theorem of_segK {k : Bytes} {n j : Nat} {pdu : TPDU} (h : SegK k n j pdu) :
    ∃ m, SegmentOf m (j + 1) pdu ∧ m.count = n ∧ keyOf m = k := by
  obtain ⟨ref, h1, h2⟩ := h
  have hs := Key.pduKey_none _ _ _ _ h2
  rw [Key.pduKey_supported _ _ _ hs] at h2
  exact ⟨⟨pdu.SmsType, peer pdu, ref, n⟩, ⟨h1, hs, rfl, rfl⟩, rfl, (Prod.mk.inj h2).1⟩

theorem keyOf_inj {m m' : Ident} (h : keyOf m = keyOf m') : m = m' := by
  obtain ⟨t, p, r, n⟩ := m
  obtain ⟨t', p', r', n'⟩ := m'
  obtain ⟨rfl, rfl, rfl, rfl⟩ := Key.formatKey_inj _ _ _ _ _ _ _ _ h
  rfl

theorem segOf_some {m : Ident} {pdu : TPDU} {seq : Nat} : segOf m pdu = some seq ↔ SegmentOf m seq pdu := by
  unfold segOf
  constructor
  · intro h
    split at h
    · rename_i c hc
      split at h
      · rename_i hh
        obtain ⟨h1, h2, h3, h4, rfl⟩ := hh
        cases h
        exact ⟨⟨hc, h1, h2, h3⟩, h4, rfl, rfl⟩
      · cases h
    · cases h
  · rintro ⟨h1, h2, h3, h4⟩
    rw [h1.info]
    simp only
    rw [if_pos]
    refine ⟨h1.multi, h1.pos, h1.le, h2, ?_⟩
    rw [h3, h4]

theorem segOf_none {m : Ident} {pdu : TPDU} (h : segOf m pdu = none) : ¬ OfKey (keyOf m) pdu := by
  rintro ⟨n, j, hk⟩
  obtain ⟨m', h1, _, h3⟩ := of_segK hk
  have := keyOf_inj h3
  subst this
  rw [segOf_some.2 h1] at h
  cases h

theorem timerOf_some {m : Ident} {s : State} {i j : Nat} (h : timerOf m s i = some j) :
    ∃ t, s.timers[i]? = some t ∧ t.key = keyOf m ∧ j = loc (keyOf m) s.timers i := by
  unfold timerOf at h
  split at h
  · rename_i t ht
    split at h
    · rename_i hk
      cases h
      exact ⟨t, ht, hk, rfl⟩
    · cases h
  · cases h

theorem timerOf_none {m : Ident} {s : State} {i : Nat} (h : timerOf m s i = none) :
    ∀ t, s.timers[i]? = some t → t.key ≠ keyOf m := by
  unfold timerOf at h
  intro t ht hk
  rw [ht] at h
  simp only at h
  rw [if_pos hk] at h
  cases h

/-! Steps. -/

theorem collect_const {s s' : State} {o : Output} {pdu : TPDU} (h : Outcome s pdu s' o) :
    s'.timeout = s.timeout ∧ s'.handler = s.handler ∧ s'.closed = s.closed ∧ s'.calls = s.calls + 1 := by
  have hst : ∀ (s : State) (k : Bytes) (p : Nat) (pipe : Pipe), (store s k p pipe).timeout = s.timeout ∧
      (store s k p pipe).handler = s.handler ∧ (store s k p pipe).closed = s.closed ∧
      (store s k p pipe).calls = s.calls := by
    intro s k p pipe
    unfold store
    split <;> exact ⟨rfl, rfl, rfl, rfl⟩
  cases h with
  | closed => exact ⟨rfl, rfl, rfl, rfl⟩
  | single => exact ⟨rfl, rfl, rfl, rfl⟩
  | range => exact ⟨rfl, rfl, rfl, rfl⟩
  | dup => exact ⟨rfl, rfl, rfl, rfl⟩
  | join => exact hst _ _ _ _
  | last => exact ⟨rfl, rfl, rfl, rfl⟩
  | fresh => exact hst _ _ _ _

/-- Every step of a supported event is possible, preserves the invariant, and acts on a message as it should. -/
theorem step_ok {s : State} (hi : Inv s) {e : Event} (he : FineEvent e) :
    ∃ s' o, step s e = .ok (s', o) ∧ Inv s' ∧ s'.timeout = s.timeout ∧ s'.handler = s.handler ∧
      (∀ m, match seen m s e with
        | some i => Reassembly.step s.timeout s.handler m.count (view (keyOf m) s) i = (view (keyOf m) s', result o)
        | none => view (keyOf m) s' = view (keyOf m) s) := by
  cases e with
  | collect pdu =>
    obtain ⟨s', o, h1, h2⟩ := collect_outcome s hi pdu he
    obtain ⟨c1, c2, _⟩ := collect_const h2
    refine ⟨s', o, h1, inv_collect hi h2, c1, c2, fun m => ?_⟩
    unfold seen
    simp only
    cases hs : segOf m pdu with
    | none => exact view_collect_other hi (segOf_none hs) h2
    | some seq =>
      simp only [Option.map_some]
      have hseg := segOf_some.1 hs
      have hpos := hseg.1.pos
      have := view_collect hi (segK_of hseg) h2
      rw [show seq - 1 + 1 = seq by omega] at this
      exact this
  | fire i =>
    refine ⟨fire s i, .silent, rfl, inv_fire hi i, ?_, ?_, fun m => ?_⟩
    · unfold fire; split
      · split <;> rfl
      · rfl
    · unfold fire; split
      · split <;> rfl
      · rfl
    · unfold seen
      simp only
      cases ht : timerOf m s i with
      | none => exact view_fire_other s _ i (timerOf_none ht)
      | some j =>
        obtain ⟨t, h1, h2, rfl⟩ := timerOf_some ht
        exact view_fire hi _ _ _ h1 h2
  | expire i =>
    refine ⟨expire s i, .silent, rfl, inv_expire hi i, ?_, ?_, fun m => ?_⟩
    · unfold expire; split
      · split <;> rfl
      · rfl
    · unfold expire; split
      · split <;> rfl
      · rfl
    · unfold seen
      simp only
      cases ht : timerOf m s i with
      | none => exact view_expire_other s _ i (timerOf_none ht)
      | some j =>
        obtain ⟨t, h1, h2, rfl⟩ := timerOf_some ht
        exact view_expire hi _ _ _ h1 h2
  | handle i =>
    refine ⟨(handle s i).1, (handle s i).2, rfl, inv_handle hi i, ?_, ?_, fun m => ?_⟩
    · unfold handle; split
      · split <;> rfl
      · rfl
    · unfold handle; split
      · split <;> rfl
      · rfl
    · unfold seen
      simp only
      cases ht : timerOf m s i with
      | none => exact view_handle_other s _ i (timerOf_none ht)
      | some j =>
        obtain ⟨t, h1, h2, rfl⟩ := timerOf_some ht
        exact view_handle _ _ h1 h2
  | close =>
    refine ⟨Close s, .silent, rfl, inv_close hi, ?_, ?_, fun m => ?_⟩
    · unfold Close; split <;> rfl
    · unfold Close; split <;> rfl
    · exact view_close hi _ _ _ _

/-- Histories never fail. -/
theorem run_ok : ∀ (es : List Event) {s : State}, Inv s → (∀ e ∈ es, FineEvent e) →
    ∃ s' os, run s es = .ok (s', os) ∧ Inv s' ∧ os.length = es.length ∧ s'.timeout = s.timeout ∧ s'.handler = s.handler := by
  intro es
  induction es with
  | nil => intro s hi _; exact ⟨s, [], rfl, hi, rfl, rfl, rfl⟩
  | cons e es ih =>
    intro s hi hf
    obtain ⟨s1, o, h1, h2, c1, c2, _⟩ := step_ok hi (hf e List.mem_cons_self)
    obtain ⟨s2, os, h3, h4, h5, c3, c4⟩ := ih h2 (fun e' he' => hf e' (List.mem_cons_of_mem _ he'))
    refine ⟨s2, o :: os, ?_, h4, by simp [h5], c3.trans c1, c4.trans c2⟩
    unfold run
    rw [h1]
    simp only [ok_bind]
    rw [h3]
    rfl

/-- One message sees what the reassembly of that message on its own does. -/
theorem watch_run (m : Ident) : ∀ (es : List Event) {s : State}, Inv s → (∀ e ∈ es, FineEvent e) →
    ∃ s' os, run s es = .ok (s', os) ∧
      Reassembly.run s.timeout s.handler m.count (view (keyOf m) s) ((watch m s es).map (·.1)) =
        (view (keyOf m) s', (watch m s es).map (·.2)) := by
  intro es
  induction es with
  | nil => intro s _ _; exact ⟨s, [], rfl, rfl⟩
  | cons e es ih =>
    intro s hi hf
    obtain ⟨s1, o, h1, h2, c1, c2, hv⟩ := step_ok hi (hf e List.mem_cons_self)
    obtain ⟨s2, os, h3, h4⟩ := ih h2 (fun e' he' => hf e' (List.mem_cons_of_mem _ he'))
    refine ⟨s2, o :: os, ?_, ?_⟩
    · unfold run
      rw [h1]
      simp only [ok_bind]
      rw [h3]
      rfl
    · unfold watch
      rw [h1]
      simp only
      have := hv m
      rw [c1, c2] at h4
      cases hs : seen m s e with
      | none =>
        rw [hs] at this
        simp only [Option.map_none, Option.toList_none, List.nil_append]
        rw [← this]
        exact h4
      | some i =>
        rw [hs] at this
        simp only [Option.map_some, Option.toList_some, List.cons_append, List.nil_append, List.map_cons]
        unfold Reassembly.run
        simp only at this
        rw [this]
        simp only
        rw [h4]

end Verif.Proofs.Coll
