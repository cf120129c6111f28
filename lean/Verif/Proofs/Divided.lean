import Verif.Spec.Divided
import Verif.Proofs.CollRun

/-! Lemmas for C127. -/

namespace Verif.Proofs.Divided

open Verif.Model Verif.Model.Collector Verif.Spec Verif.Proofs Verif.Proofs.Coll

/-- The keys of the timers. -/
def keys (s : State) : List Bytes := s.timers.map (·.key)

/-- The keys of messages that go to Collector `k`. -/
def Mine (to : TPDU → Nat) (k : Nat) (key : Bytes) : Prop := ∃ m, Goes to k m ∧ key = keyOf m

open Classical in
/-- One Collector for everything, and the one for the part `k`. -/
structure Same (to : TPDU → Nat) (k : Nat) (s s' : State) : Prop where
  inv : Inv s
  inv' : Inv s'
  timeout : s'.timeout = s.timeout
  handler : s'.handler = s.handler
  closed : s'.closed = s.closed
  views : ∀ m, Goes to k m → view (keyOf m) s' = view (keyOf m) s
  keys : keys s' = (keys s).filter (fun x => Mine to k x)

theorem step_closed {s s' : State} {e : Event} {o : Output} (hi : Inv s) (he : FineEvent e) (h : step s e = .ok (s', o)) :
    s'.closed = if e = .close then true else s.closed := by
  cases e with
  | collect pdu =>
    obtain ⟨s1, o1, h1, h2⟩ := collect_outcome s hi pdu he
    change Collect s pdu = _ at h
    rw [h1] at h
    cases h
    exact (collect_const h2).2.2.1
  | close =>
    cases h
    unfold Close
    simp only
    split
    · assumption
    · rfl
  | fire i =>
    cases h
    rw [if_neg (by simp)]
    unfold fire
    repeat' split
    all_goals rfl
  | expire i =>
    cases h
    rw [if_neg (by simp)]
    unfold expire
    repeat' split
    all_goals rfl
  | handle i =>
    change Except.ok (handle s i) = _ at h
    have h := Except.ok.inj h
    have : (handle s i).1 = s' := by rw [h]
    rw [← this, if_neg (by simp)]
    unfold handle
    split
    · split <;> rfl
    · rfl

theorem keys_set {l : List Timer} {i : Nat} {t : Timer} (h : l[i]? = some t) (st : TimerState) :
    (l.set i { t with state := st }).map (·.key) = l.map (·.key) := by
  rw [List.map_set]
  apply List.ext_getElem?
  intro j
  by_cases hj : i = j
  · subst hj
    rw [List.getElem?_set_self (by simpa using (List.getElem?_eq_some_iff.1 h).1), List.getElem?_map, h]; rfl
  · rw [List.getElem?_set_ne hj]

theorem keys_stop (l : List Timer) (i : Nat) : (stopTimer l i).2.map (·.key) = l.map (·.key) := by
  unfold stopTimer
  split
  · rename_i t ht
    split
    · exact keys_set ht _
    · rfl
  · rfl

theorem keys_stopAll (heap : List Pipe) (ps : List (Bytes × Nat)) : ∀ l : List Timer, (stopAll heap ps l).map (·.key) = l.map (·.key) := by
  induction ps with
  | nil => intro l; rfl
  | cons x ps ih =>
    intro l
    unfold stopAll
    split
    · split
      · rw [ih, keys_stop]
      · exact ih l
    · exact ih l

theorem keys_store (s : State) (key : Bytes) (p : Nat) (pipe : Pipe) :
    keys (store s key p pipe) = keys s ∨ keys (store s key p pipe) = keys s ++ [key] := by
  unfold store keys
  split
  · right; simp
  · left; rfl

/-- Timers are only ever added, by a segment, for its message. -/
theorem step_keys {s s' : State} {e : Event} {o : Output} (hi : Inv s) (he : FineEvent e) (h : step s e = .ok (s', o)) :
    keys s' = keys s ∨ ∃ pdu m seq, e = .collect pdu ∧ segOf m pdu = some seq ∧ keys s' = keys s ++ [keyOf m] := by
  cases e with
  | collect pdu =>
    obtain ⟨s1, o1, h1, h2⟩ := collect_outcome s hi pdu he
    change Collect s pdu = _ at h
    rw [h1] at h
    cases h
    have hseg : ∀ {k : Bytes} {n j : Nat}, SegK k n j pdu → ∃ m seq, segOf m pdu = some seq ∧ keyOf m = k := by
      intro k n j hk
      obtain ⟨m, a, _, c⟩ := of_segK hk
      exact ⟨m, _, segOf_some.2 a, c⟩
    have htim : ∀ {pipe : Pipe} {timers : List Timer}, (s.timeout = false ∧ pipe.cleanup = none ∧ timers = s.timers ∨
        ∃ (tid : Nat) (t : Timer), s.timeout = true ∧ pipe.cleanup = some tid ∧ s.timers[tid]? = some t ∧ t.state = .armed ∧
          timers = s.timers.set tid { t with state := .stopped }) → timers.map (·.key) = keys s := by
      rintro pipe timers (⟨_, _, rfl⟩ | ⟨tid, t, _, _, ht, _, rfl⟩)
      · rfl
      · exact keys_set ht _
    cases h2 with
    | closed => exact .inl rfl
    | single => exact .inl rfl
    | range => exact .inl rfl
    | dup => exact .inl rfl
    | join k n j p pipe timers hc hk hl hp hj hn ht hlt =>
      have h0 : keys { s with calls := s.calls + 1, timers := timers } = keys s := htim ht
      rcases keys_store { s with calls := s.calls + 1, timers := timers } k p (fill pipe j ⟨s.calls, pdu⟩) with h | h
      · exact .inl (h.trans h0)
      · obtain ⟨m, seq, a, b⟩ := hseg hk
        exact .inr ⟨pdu, m, seq, rfl, a, by rw [h, h0, b]⟩
    | last k n j p pipe timers hc hk hl hp hj hn ht hlt => exact .inl (htim ht)
    | fresh k n j hc hk hl =>
      rcases keys_store { s with
          calls := s.calls + 1
          pipes := mapSet s.pipes k s.heap.length
          heap := s.heap ++ [⟨none, List.replicate n none, 0⟩] } k s.heap.length
        (fill ⟨none, List.replicate n none, 0⟩ j ⟨s.calls, pdu⟩) with h | h
      · exact .inl h
      · obtain ⟨m, seq, a, b⟩ := hseg hk
        exact .inr ⟨pdu, m, seq, rfl, a, by rw [h, b]; rfl⟩
  | close =>
    cases h
    left
    unfold Close
    split
    · rfl
    · exact keys_stopAll _ _ _
  | fire i =>
    cases h
    left
    unfold fire
    split
    · rename_i t ht
      split
      · exact keys_set ht _
      · rfl
    · rfl
  | expire i =>
    cases h
    left
    unfold expire
    split
    · rename_i t ht
      split
      · exact keys_set ht _
      · rfl
    · rfl
  | handle i =>
    change Except.ok (handle s i) = _ at h
    have h := Except.ok.inj h
    have : (handle s i).1 = s' := by rw [h]
    rw [← this]
    left
    unfold handle
    split
    · rename_i t ht
      split
      · exact keys_set ht _
      · rfl
    · rfl

/-- The number of timers of a message is seen by the message. -/
theorem view_count (k : Bytes) (s : State) : (view k s).clocks.length = ((keys s).filter (fun x => x = k)).length := by
  unfold view sel keys
  rw [List.filter_map]
  simp only [List.length_map]
  rfl

theorem timerOf_keys (m : Ident) (s : State) (i : Nat) : timerOf m s i = match (keys s)[i]? with
    | some x => if x = keyOf m then some (((keys s).take i).filter (fun x => x = keyOf m)).length else none
    | none => none := by
  unfold timerOf keys
  rw [List.getElem?_map]
  cases s.timers[i]? with
  | none => rfl
  | some t =>
    simp only [Option.map_some]
    split
    · rw [← List.map_take, List.filter_map]
      simp only [List.length_map]
      rfl
    · rfl

open Classical in
theorem timerAt_keys (to : TPDU → Nat) (k : Nat) (s : State) (i : Nat) : timerAt to k s i = match (keys s)[i]? with
    | some x => if Mine to k x then some (((keys s).take i).filter (fun x => Mine to k x)).length else none
    | none => none := by
  unfold timerAt keys
  rw [List.getElem?_map]
  cases s.timers[i]? with
  | none => rfl
  | some t =>
    simp only [Option.map_some]
    by_cases h : Mine to k t.key
    · rw [if_pos h, if_pos (show ∃ m, Goes to k m ∧ t.key = keyOf m from h), ← List.map_take, List.filter_map]
      simp only [List.length_map]
      rfl
    · rw [if_neg h, if_neg (show ¬ ∃ m, Goes to k m ∧ t.key = keyOf m from h)]

/-- An element that is kept by a filter, and its place. -/
theorem filter_at {α : Type} (p : α → Bool) {l : List α} {i : Nat} {x : α} (h : l[i]? = some x) (hp : p x = true) :
    (l.filter p)[((l.take i).filter p).length]? = some x ∧
    (l.filter p).take ((l.take i).filter p).length = (l.take i).filter p := by
  obtain ⟨h1, _⟩ := split_at h
  have : l.filter p = (l.take i).filter p ++ x :: (l.drop (i + 1)).filter p := by
    conv => lhs; rw [h1]
    rw [List.filter_append, List.filter_cons_of_pos hp]
  rw [this]
  exact ⟨by simp, by simp⟩

/-- A timer of a message has the same number among those of the message in both Collectors. -/
theorem timer_same {to : TPDU → Nat} {k : Nat} {s s' : State} (hs : Same to k s s') {i i' : Nat} (h : timerAt to k s i = some i') :
    (∀ m, Goes to k m → timerOf m s' i' = timerOf m s i) ∧ ∃ m, Goes to k m ∧ timerOf m s i ≠ none := by
  rw [timerAt_keys] at h
  cases hx : (keys s)[i]? with
  | none => rw [hx] at h; cases h
  | some x =>
    rw [hx] at h
    simp only at h
    by_cases hm : Mine to k x
    · rw [if_pos hm] at h
      cases h
      obtain ⟨f1, f2⟩ := filter_at (fun x => @decide (Mine to k x) (Classical.propDecidable _)) hx (by simpa using hm)
      rw [← hs.keys] at f1 f2
      constructor
      · intro m hg
        rw [timerOf_keys, timerOf_keys, f1, f2, hx]
        simp only
        split
        · congr 1
          rw [List.filter_filter]
          congr 1
          apply List.filter_congr
          intro y _
          by_cases hy : y = keyOf m
          · simp only [hy, decide_true, Bool.true_and, decide_eq_true_eq]
            exact ⟨m, hg, rfl⟩
          · simp [hy]
        · rfl
      · obtain ⟨m, hg, rfl⟩ := hm
        refine ⟨m, hg, ?_⟩
        rw [timerOf_keys, hx]
        simp
    · rw [if_neg hm] at h; cases h

theorem timer_other {to : TPDU → Nat} {k : Nat} {s : State} {i : Nat} (h : timerAt to k s i = none) (m : Ident) (hg : Goes to k m) :
    timerOf m s i = none := by
  rw [timerAt_keys] at h
  rw [timerOf_keys]
  cases hx : (keys s)[i]? with
  | none => rfl
  | some x =>
    rw [hx] at h
    simp only at h ⊢
    split
    · rename_i he
      rw [if_pos ⟨m, hg, he⟩] at h
      cases h
    · rfl

/-- What is not a segment of a message is answered without looking at what is pending. -/
theorem other_answer {s s1 : State} {pdu : TPDU} {o : Output} (hf : Fine pdu) (hn : ∀ m, segOf m pdu = none)
    (h : Collect s pdu = .ok (s1, o)) :
    result o = if s.closed = true then .returned [] (some .closed)
      else match pdu.ConcatInfo with
        | none => .returned [some pdu] none
        | some ci => if ci.segments < 2 then .returned [some pdu] none
          else .returned [] (some .reassemblyInconsistency) := by
  unfold Collect at h
  simp only at h
  by_cases hc : s.closed = true
  · rw [if_pos hc] at h ⊢
    cases h; rfl
  · rw [if_neg hc] at h ⊢
    cases hi : pdu.ConcatInfo with
    | none =>
      rw [hi] at h
      cases h; rfl
    | some ci =>
      rw [hi] at h
      simp only at h ⊢
      by_cases h2 : ci.segments < 2
      · rw [if_pos h2] at h ⊢
        cases h; rfl
      · rw [if_neg h2] at h ⊢
        by_cases h3 : ci.seqno < 1 ∨ ci.seqno > ci.segments
        · rw [if_pos h3] at h
          cases h; rfl
        · exfalso
          have hm : MultiPart pdu := ⟨ci, hi, by omega⟩
          have := segOf_some.2 (show SegmentOf ⟨pdu.SmsType, peer pdu, ci.mref, ci.segments⟩ ci.seqno pdu from
            ⟨⟨hi, by simp only; omega, by omega, by simp only; omega⟩, hf hm, rfl, rfl⟩)
          rw [hn] at this; cases this

/-- What an event is to a message that goes to Collector `k`, it is there, too. -/
theorem seen_same {to : TPDU → Nat} {k : Nat} {s s' : State} (hs : Same to k s s') {e e' : Event} (h : eventAt to k s e = some e') :
    (∀ m, Goes to k m → seen m s' e' = seen m s e) ∧ (FineEvent e → FineEvent e') ∧ (e' = .close ↔ e = .close) ∧
    ((∃ m, Goes to k m ∧ seen m s e ≠ none) ∨ (e = .close ∧ e' = .close) ∨ ∃ pdu, e = .collect pdu ∧ e' = .collect pdu ∧ ∀ m, segOf m pdu = none) := by
  cases e with
  | collect pdu =>
    simp only [eventAt] at h
    split at h
    · rename_i ht
      cases h
      refine ⟨fun _ _ => rfl, id, by simp, ?_⟩
      by_cases hm : ∃ m seq, segOf m pdu = some seq
      · obtain ⟨m, seq, hm⟩ := hm
        exact .inl ⟨m, ⟨seq, pdu, segOf_some.1 hm, ht⟩, by simp [seen, hm]⟩
      · refine .inr (.inr ⟨pdu, rfl, rfl, fun m => ?_⟩)
        cases hq : segOf m pdu with
        | none => rfl
        | some seq => exact absurd ⟨m, seq, hq⟩ hm
    · cases h
  | close =>
    cases h
    exact ⟨fun _ _ => rfl, id, by simp, .inr (.inl ⟨rfl, rfl⟩)⟩
  | fire i =>
    simp only [eventAt, Option.map_eq_some_iff] at h
    obtain ⟨i', h1, rfl⟩ := h
    obtain ⟨a, m, b, c⟩ := timer_same hs h1
    exact ⟨fun m hm => by simp [seen, a m hm], fun _ => trivial, by simp, .inl ⟨m, b, by simpa [seen] using c⟩⟩
  | expire i =>
    simp only [eventAt, Option.map_eq_some_iff] at h
    obtain ⟨i', h1, rfl⟩ := h
    obtain ⟨a, m, b, c⟩ := timer_same hs h1
    exact ⟨fun m hm => by simp [seen, a m hm], fun _ => trivial, by simp, .inl ⟨m, b, by simpa [seen] using c⟩⟩
  | handle i =>
    simp only [eventAt, Option.map_eq_some_iff] at h
    obtain ⟨i', h1, rfl⟩ := h
    obtain ⟨a, m, b, c⟩ := timer_same hs h1
    exact ⟨fun m hm => by simp [seen, a m hm], fun _ => trivial, by simp, .inl ⟨m, b, by simpa [seen] using c⟩⟩

/-- Timers are added to both Collectors or to none. -/
theorem keys_same {to : TPDU → Nat} {k : Nat} {s s' t t' : State} (hs : Same to k s s') {e e' : Event} {o o' : Output}
    (he : FineEvent e) (he' : FineEvent e') (hev : eventAt to k s e = some e') (h : step s e = .ok (t, o)) (h' : step s' e' = .ok (t', o'))
    (hv : ∀ m, Goes to k m → view (keyOf m) t' = view (keyOf m) t) :
    keys t' = (keys t).filter (fun x => @decide (Mine to k x) (Classical.propDecidable _)) := by
  have hcol : ∀ pdu, e' = .collect pdu ↔ e = .collect pdu ∧ to pdu = k := by
    intro pdu
    cases e with
    | collect q =>
      simp only [eventAt] at hev
      split at hev
      · rename_i hq
        cases hev
        constructor
        · rintro h; cases h; exact ⟨rfl, hq⟩
        · rintro ⟨h, _⟩; exact h
      · cases hev
    | close => cases hev; simp
    | fire i => simp only [eventAt, Option.map_eq_some_iff] at hev; obtain ⟨_, _, rfl⟩ := hev; simp
    | expire i => simp only [eventAt, Option.map_eq_some_iff] at hev; obtain ⟨_, _, rfl⟩ := hev; simp
    | handle i => simp only [eventAt, Option.map_eq_some_iff] at hev; obtain ⟨_, _, rfl⟩ := hev; simp
  have huniq : ∀ {m m' : Ident} {pdu : TPDU} {i j : Nat}, segOf m pdu = some i → segOf m' pdu = some j → m = m' := by
    intro m m' pdu i j a b
    have a := segOf_some.1 a
    have b := segOf_some.1 b
    have hi := a.1.info.symm.trans b.1.info
    simp only [Option.some.injEq, UDH.Concat.mk.injEq] at hi
    obtain ⟨c1, c2, c3, c4⟩ := m
    obtain ⟨d1, d2, d3, d4⟩ := m'
    have e1 := a.2.2.1.symm.trans b.2.2.1
    have e2 := a.2.2.2.symm.trans b.2.2.2
    simp only at hi e1 e2
    rw [e1, e2, hi.1, hi.2.2]
  have hcount : ∀ m, Goes to k m → ((keys t').filter (fun x => x = keyOf m)).length = ((keys t).filter (fun x => x = keyOf m)).length := by
    intro m hm
    rw [← view_count, ← view_count, hv m hm]
  have hcount0 : ∀ m, Goes to k m → ((keys s').filter (fun x => x = keyOf m)).length = ((keys s).filter (fun x => x = keyOf m)).length := by
    intro m hm
    rw [← view_count, ← view_count, hs.views m hm]
  rcases step_keys hs.inv he h with h1 | ⟨pdu, m, seq, rfl, hm, h1⟩
  · rcases step_keys hs.inv' he' h' with h2 | ⟨pdu, m, seq, hp, hm, h2⟩
    · rw [h1, h2]; exact hs.keys
    · exfalso
      have hg : Goes to k m := ⟨seq, pdu, segOf_some.1 hm, ((hcol pdu).1 hp).2⟩
      have a := hcount m hg
      rw [h1, h2, ← hcount0 m hg, List.filter_append] at a
      simp at a
  · have hto : to pdu = k := by
      simp only [eventAt] at hev
      split at hev
      · assumption
      · cases hev
    have hg : Goes to k m := ⟨seq, pdu, segOf_some.1 hm, hto⟩
    rcases step_keys hs.inv' he' h' with h2 | ⟨pdu', m', seq', hp, hm', h2⟩
    · exfalso
      have a := hcount m hg
      rw [h1, h2, hcount0 m hg, List.filter_append] at a
      simp at a
    · have := ((hcol pdu').1 hp).1
      cases this
      have := huniq hm hm'
      subst this
      rw [h1, h2, List.filter_append, hs.keys]
      congr 1
      have hmine : Mine to k (keyOf m) := ⟨m, hg, rfl⟩
      simp only [List.filter_cons, hmine, decide_true, if_true, List.filter_nil]

/-- A step of both. -/
theorem same_step {to : TPDU → Nat} {k : Nat} {s s' : State} (hs : Same to k s s') {e e' : Event} (he : FineEvent e)
    (hev : eventAt to k s e = some e') {s1 : State} {o : Output} (h : step s e = .ok (s1, o)) :
    ∃ s1' o', step s' e' = .ok (s1', o') ∧ result o' = result o ∧ Same to k s1 s1' := by
  obtain ⟨hseen, hfine, hclose, hkind⟩ := seen_same hs hev
  have he' := hfine he
  obtain ⟨t, p, h1, h2, c1, c2, hv⟩ := step_ok hs.inv he
  rw [h] at h1; cases h1
  obtain ⟨t', p', h1', h2', c1', c2', hv'⟩ := step_ok hs.inv' he'
  have hcl := step_closed hs.inv he h
  have hcl' := step_closed hs.inv' he' h1'
  have hcases : ∀ m, Goes to k m → view (keyOf m) t' = view (keyOf m) s1 ∧ (seen m s e ≠ none → result p' = result o) := by
    intro m hm
    have a := hv m
    have b := hv' m
    rw [hseen m hm] at b
    cases hsn : seen m s e with
    | none =>
      rw [hsn] at a b
      exact ⟨by rw [a, b, hs.views m hm], fun h => absurd rfl h⟩
    | some i =>
      rw [hsn] at a b
      simp only at a b
      rw [hs.timeout, hs.handler, hs.views m hm, a] at b
      have b := Prod.mk.inj b
      exact ⟨b.1.symm, fun _ => b.2.symm⟩
  refine ⟨t', p', h1', ?_, ⟨h2, h2', by rw [c1', c1, hs.timeout], by rw [c2', c2, hs.handler], ?_, fun m hm => (hcases m hm).1,
    keys_same hs he he' hev h h1' fun m hm => (hcases m hm).1⟩⟩
  · rcases hkind with ⟨m, hm, hne⟩ | ⟨rfl, rfl⟩ | ⟨pdu, rfl, rfl, hn⟩
    · exact (hcases m hm).2 hne
    · cases h; cases h1'; rfl
    · rw [other_answer he hn h, other_answer he hn h1', hs.closed]
  · rw [hcl, hcl', hs.closed]
    by_cases hc : e = .close
    · rw [if_pos hc, if_pos (hclose.2 hc)]
    · rw [if_neg hc, if_neg (fun h => hc (hclose.1 h))]

/-- A step that does not concern Collector `k`. -/
theorem same_other {to : TPDU → Nat} (ht : KeepsTogether to) {k : Nat} {s s' : State} (hs : Same to k s s') {e : Event} (he : FineEvent e)
    (hev : eventAt to k s e = none) {s1 : State} {o : Output} (h : step s e = .ok (s1, o)) : Same to k s1 s' := by
  obtain ⟨t, p, h1, h2, c1, c2, hv⟩ := step_ok hs.inv he
  rw [h] at h1; cases h1
  have hcl := step_closed hs.inv he h
  have hne : e ≠ .close := by rintro rfl; cases hev
  have hseg : ∀ pdu m seq, e = .collect pdu → segOf m pdu = some seq → ¬ Goes to k m := by
    rintro pdu m seq rfl hq ⟨i, q, hq1, hq2⟩
    have := ht m seq i pdu q (segOf_some.1 hq) hq1
    simp [eventAt, this, hq2] at hev
  have hsn : ∀ m, Goes to k m → seen m s e = none := by
    intro m hm
    cases e with
    | collect pdu =>
      cases hq : segOf m pdu with
      | none => simp [seen, hq]
      | some seq => exact absurd hm (hseg pdu m seq rfl hq)
    | close => exact absurd rfl hne
    | fire i => simp only [eventAt, Option.map_eq_none_iff] at hev; simp [seen, timer_other hev m hm]
    | expire i => simp only [eventAt, Option.map_eq_none_iff] at hev; simp [seen, timer_other hev m hm]
    | handle i => simp only [eventAt, Option.map_eq_none_iff] at hev; simp [seen, timer_other hev m hm]
  refine ⟨h2, hs.inv', by rw [c1, hs.timeout], by rw [c2, hs.handler], by rw [hcl, if_neg hne, hs.closed], ?_, ?_⟩
  · intro m hm
    have a := hv m
    rw [hsn m hm] at a
    rw [a, hs.views m hm]
  · rcases step_keys hs.inv he h with h3 | ⟨pdu, m, seq, he', hm, h3⟩
    · rw [h3]; exact hs.keys
    · rw [h3, List.filter_append, hs.keys]
      have : ¬ Mine to k (keyOf m) := by
        rintro ⟨m', hg, hk⟩
        have := keyOf_inj hk
        subst this
        exact hseg pdu m seq he' hm hg
      rw [List.filter_cons_of_neg (by simpa using this)]
      simp

theorem same_run {to : TPDU → Nat} (ht : KeepsTogether to) {k : Nat} : ∀ (es : List Event) {s s' : State}, Same to k s s' →
    (∀ e ∈ es, FineEvent e) → ∀ {s1 : State} {os : List Output}, run s es = .ok (s1, os) →
    ∃ s1' os', run s' ((share to k s es).map (·.1)) = .ok (s1', os') ∧
      os'.map result = (share to k s es).map (·.2) ∧ Same to k s1 s1' := by
  intro es
  induction es with
  | nil =>
    intro s s' hs _ s1 os h
    cases h
    exact ⟨s', [], rfl, rfl, hs⟩
  | cons e es ih =>
    intro s s' hs hes s1 os h
    obtain ⟨t, p, h1, _⟩ := step_ok hs.inv (hes e List.mem_cons_self)
    unfold run at h
    rw [h1] at h
    simp only [ok_bind] at h
    obtain ⟨⟨t2, os2⟩, h2, h3⟩ := bind_eq_ok.1 h
    cases h3
    unfold share
    rw [h1]
    simp only
    cases hev : eventAt to k s e with
    | some e' =>
      obtain ⟨t', p', g1, g2, g3⟩ := same_step hs (hes e List.mem_cons_self) hev h1
      obtain ⟨s2', os', k1, k2, k3⟩ := ih g3 (fun e' he' => hes e' (List.mem_cons_of_mem _ he')) h2
      refine ⟨s2', p' :: os', ?_, ?_, k3⟩
      · simp only [Option.map_some, Option.toList_some, List.cons_append, List.nil_append, List.map_cons]
        unfold run
        rw [g1]
        simp only [ok_bind]
        rw [k1]
        rfl
      · simp only [Option.map_some, Option.toList_some, List.cons_append, List.nil_append, List.map_cons, k2, g2]
    | none =>
      obtain ⟨s2', os', k1, k2, k3⟩ := ih (same_other ht hs (hes e List.mem_cons_self) hev h1)
        (fun e' he' => hes e' (List.mem_cons_of_mem _ he')) h2
      exact ⟨s2', os', k1, k2, k3⟩

/-- Without timer events the share is what goes to the Collector. -/
theorem share_noTimer (to : TPDU → Nat) (k : Nat) : ∀ (es : List Event) {s s1 : State} {os : List Output}, (∀ e ∈ es, NoTimer e) →
    run s es = .ok (s1, os) →
    (share to k s es).map (·.1) = es.filter (goesTo to k) ∧
    (share to k s es).map (·.2) = ((es.zip os).filter fun x => goesTo to k x.1).map (fun x => result x.2) := by
  intro es
  induction es with
  | nil => intro s s1 os _ h; cases h; exact ⟨rfl, rfl⟩
  | cons e es ih =>
    intro s s1 os hn h
    unfold run at h
    obtain ⟨⟨t, p⟩, h1, h2⟩ := bind_eq_ok.1 h
    obtain ⟨⟨t2, os2⟩, h3, h4⟩ := bind_eq_ok.1 h2
    cases h4
    obtain ⟨i1, i2⟩ := ih (fun e' he' => hn e' (List.mem_cons_of_mem _ he')) h3
    unfold share
    rw [h1]
    have hev : eventAt to k s e = if goesTo to k e = true then some e else none := by
      have := hn e List.mem_cons_self
      cases e with
      | collect pdu => simp [eventAt, goesTo]
      | close => rfl
      | _ => cases this
    simp only [hev]
    by_cases hg : goesTo to k e = true
    · rw [if_pos hg, List.filter_cons_of_pos hg, List.zip_cons_cons,
        List.filter_cons_of_pos (p := fun x : Event × Output => goesTo to k x.1) (a := (e, p)) hg]
      simp [i1, i2]
    · rw [if_neg hg, List.filter_cons_of_neg hg, List.zip_cons_cons,
        List.filter_cons_of_neg (p := fun x : Event × Output => goesTo to k x.1) (a := (e, p)) hg]
      exact ⟨i1, i2⟩

theorem view_pendingOf {s : State} (hi : Inv s) (m : Ident) : pendingOf m s = (view (keyOf m) s).pending.map (·.1) := by
  unfold pendingOf Pipes
  cases hl : s.pipes.lookup (keyOf m) with
  | none => unfold view; simp [hl]
  | some p =>
    obtain ⟨pipe, h1, _⟩ := hi.cur _ p hl
    rw [view_pending hl h1]
    simp only [Option.map_some, deref, h1, Option.getD_some]

end Verif.Proofs.Divided
