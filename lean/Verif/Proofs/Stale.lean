import Verif.Proofs.Timed

/-! Segments that arrive late are not joined to what was pending. -/

namespace Verif.Proofs.Coll
open Verif.Model Verif.Model.Collector Verif.Spec Verif.Proofs
open Verif.Spec.Timed (History events Ordered arrivals Along Timely Prompt Brisk Chained)

/-- The times of the calls of `Collect`. -/
def times (h : History) : List Int := (arrivals h).map (·.1)

theorem chained_append {lag : Int} {a : List Int} {d : List (Option Ptr)} (h : Chained lag a d) (b : List Int) : Chained lag (a ++ b) d := by
  intro ptr hp
  rcases h ptr hp with h | ⟨q, x, y, h1, h2, h3, h4, h5⟩
  · exact .inl h
  · refine .inr ⟨q, x, y, h1, h2, ?_, ?_, h5⟩
    · rw [List.getElem?_append_left (get_lt h3)]; exact h3
    · rw [List.getElem?_append_left (get_lt h4)]; exact h4

/-- Which segments a reassembly with one more has. -/
theorem mem_fill {pipe : Pipe} {j : Nat} (hj : pipe.segments[j]? = some none) (ptr q : Ptr) :
    some q ∈ (fill pipe j ptr).segments ↔ q = ptr ∨ some q ∈ pipe.segments := by
  unfold fill
  simp only
  have hlt := get_lt hj
  constructor
  · intro h
    obtain ⟨i, hi⟩ := List.mem_iff_getElem?.1 h
    by_cases hij : j = i
    · subst hij
      rw [List.getElem?_set_self hlt] at hi
      exact .inl (Option.some.inj (Option.some.inj hi)).symm
    · rw [List.getElem?_set_ne hij] at hi
      exact .inr (List.mem_of_getElem? hi)
  · rintro (rfl | h)
    · exact List.mem_of_getElem? (List.getElem?_set_self hlt)
    · obtain ⟨i, hi⟩ := List.mem_iff_getElem?.1 h
      have hij : j ≠ i := by rintro rfl; rw [hj] at hi; cases hi
      exact List.mem_of_getElem? (i := i) (by rw [List.getElem?_set_ne hij]; exact hi)

/-- Timers carry the time of the newest segment; and segments follow one another within `lag`. -/
structure Stamped (lag : Int) (s : State) (set at_ : List Int) : Prop where
  timers : set.length = s.timers.length
  calls : at_.length = s.calls
  last : ∀ (p : Nat) (pipe : Pipe) (tid : Nat), s.heap[p]? = some pipe → pipe.cleanup = some tid → pipe.frags < pipe.segments.length →
    ∃ τ ptr, set[tid]? = some τ ∧ some ptr ∈ pipe.segments ∧ at_[ptr.id]? = some τ ∧ ∀ q, some q ∈ pipe.segments → q.id ≤ ptr.id
  chain : ∀ (p : Nat) (pipe : Pipe), s.heap[p]? = some pipe → Chained lag at_ pipe.segments

theorem stamped_new (lag : Int) (timeout handler : Bool) : Stamped lag (New timeout handler) [] [] where
  timers := rfl
  calls := rfl
  last := by intro p pipe tid h; simp [New] at h
  chain := by intro p pipe h; simp [New] at h

/-- An event that changes no reassembly. -/
theorem stamped_quiet {lag : Int} {s s' : State} {set at_ : List Int} (h : Stamped lag s set at_) (h1 : s'.heap = s.heap)
    (h2 : s'.timers.length = s.timers.length) (h3 : s'.calls = s.calls) (now : Int) : Stamped lag s' (stamp set s s' now) at_ where
  timers := stamp_length h.timers (Nat.le_of_eq h2.symm) now
  calls := by rw [h.calls, h3]
  last := by
    intro p pipe tid a b c
    rw [h1] at a
    obtain ⟨τ, ptr, a1, a2⟩ := h.last p pipe tid a b c
    exact ⟨τ, ptr, stamp_old a1, a2⟩
  chain := by intro p pipe a; rw [h1] at a; exact h.chain p pipe a

theorem old_call {at_ : List Int} {now τ : Int} {c : Nat} (h : at_[c]? = some τ) : (at_ ++ [now])[c]? = some τ := by
  rw [List.getElem?_append_left (get_lt h)]; exact h

/-- A call that changes no reassembly. -/
theorem stamped_call {lag : Int} {s : State} {set at_ : List Int} (h : Stamped lag s set at_) (now : Int) :
    Stamped lag { s with calls := s.calls + 1 } (stamp set s { s with calls := s.calls + 1 } now) (at_ ++ [now]) where
  timers := stamp_length h.timers (Nat.le_refl _) now
  calls := by simp [h.calls]
  last := by
    intro p pipe tid a b c
    obtain ⟨τ, ptr, a1, a2, a3, a4⟩ := h.last p pipe tid a b c
    exact ⟨τ, ptr, stamp_old a1, a2, old_call a3, a4⟩
  chain := by intro p pipe a; exact chained_append (h.chain p pipe a) _

/-- One more segment, within `lag` of the newest. -/
theorem chained_fill {lag : Int} {at_ : List Int} {now : Int} {pipe : Pipe} {j c : Nat} {pdu : TPDU} (hc : at_.length = c)
    (hj : pipe.segments[j]? = some none) (hids : ∀ q, some q ∈ pipe.segments → q.id < c) (h : Chained lag at_ pipe.segments)
    (hlast : ∃ τ ptr, some ptr ∈ pipe.segments ∧ at_[ptr.id]? = some τ ∧ (∀ q, some q ∈ pipe.segments → q.id ≤ ptr.id) ∧ now ≤ τ + lag) :
    Chained lag (at_ ++ [now]) (fill pipe j ⟨c, pdu⟩).segments := by
  subst hc
  intro q hq
  rw [mem_fill hj] at hq
  rcases hq with rfl | hq
  · left
    intro q' hq'
    rw [mem_fill hj] at hq'
    rcases hq' with rfl | hq'
    · exact Nat.le_refl _
    · exact Nat.le_of_lt (hids q' hq')
  · right
    rcases h q hq with hl | ⟨q', x, y, h1, h2, h3, h4, h5⟩
    · obtain ⟨τ, ptr, p1, p2, p3, p4⟩ := hlast
      have hid : ptr.id = q.id := Nat.le_antisymm (hl ptr p1) (p3 q hq)
      rw [hid] at p2
      refine ⟨⟨at_.length, pdu⟩, τ, now, (mem_fill hj _ _).2 (.inl rfl), hids q hq, old_call p2, by simp, p4⟩
    · exact ⟨q', x, y, (mem_fill hj _ _).2 (.inr h1), h2, old_call h3, old_call h4, h5⟩

theorem chained_one (lag : Int) (at_ : List Int) (n j : Nat) (ptr : Ptr) :
    Chained lag at_ (fill ⟨none, List.replicate n none, 0⟩ j ptr).segments := by
  intro q hq
  left
  have one : ∀ q, some q ∈ (fill ⟨none, List.replicate n none, 0⟩ j ptr).segments → q = ptr := by
    intro q hq
    obtain ⟨i, hi⟩ := List.mem_iff_getElem?.1 hq
    unfold fill at hi
    simp only at hi
    by_cases hij : j = i
    · subst hij
      have hlt := get_lt hi
      rw [List.length_set] at hlt
      rw [List.getElem?_set_self hlt] at hi
      exact (Option.some.inj (Option.some.inj hi)).symm
    · rw [List.getElem?_set_ne hij, List.getElem?_replicate] at hi
      split at hi <;> cases hi
  intro q' hq'
  rw [one q hq, one q' hq']
  exact Nat.le_refl _

/-- Storing a reassembly that has just got its newest segment. -/
theorem stamped_store {lag : Int} {s0 s : State} {set at_ : List Int} {now : Int} (hset : set.length = s0.timers.length)
    (hto : s.timeout = true) (htl : s.timers.length = s0.timers.length) (hcalls : (at_ ++ [now]).length = s.calls)
    {k : Bytes} {p j : Nat} {pipe : Pipe} {pdu : TPDU} (hp : p < s.heap.length) (hj : pipe.segments[j]? = some none)
    (hids : ∀ q, some q ∈ pipe.segments → q.id < at_.length)
    (hch : Chained lag (at_ ++ [now]) (fill pipe j ⟨at_.length, pdu⟩).segments)
    (hold : ∀ (p' : Nat) (pipe' : Pipe), p' ≠ p → s.heap[p']? = some pipe' → s0.heap[p']? = some pipe')
    (h : Stamped lag s0 set at_) :
    Stamped lag (store s k p (fill pipe j ⟨at_.length, pdu⟩)) (stamp set s0 (store s k p (fill pipe j ⟨at_.length, pdu⟩)) now) (at_ ++ [now]) := by
  have hl1 : (store s k p (fill pipe j ⟨at_.length, pdu⟩)).timers.length = s0.timers.length + 1 := by
    rw [store_timers, hto, htl]; rfl
  have hheap : (store s k p (fill pipe j ⟨at_.length, pdu⟩)).heap =
      s.heap.set p { fill pipe j ⟨at_.length, pdu⟩ with cleanup := some s.timers.length } := by
    unfold store; rw [if_pos hto]
  refine ⟨stamp_length hset (by omega) now, ?_, ?_, ?_⟩
  · rw [hcalls]; unfold store; split <;> rfl
  · intro p' pipe' tid a b c
    rw [hheap] at a
    by_cases hpp : p = p'
    · subst hpp
      rw [List.getElem?_set_self hp] at a
      cases a
      simp only [Option.some.injEq] at b
      subst b
      refine ⟨now, ⟨at_.length, pdu⟩, ?_, (mem_fill hj _ _).2 (.inl rfl), by simp, ?_⟩
      · rw [htl]; exact stamp_new hset hl1 now
      · intro q hq
        have hq : some q ∈ (fill pipe j ⟨at_.length, pdu⟩).segments := hq
        rw [mem_fill hj] at hq
        rcases hq with rfl | hq
        · exact Nat.le_refl _
        · exact Nat.le_of_lt (hids q hq)
    · rw [List.getElem?_set_ne hpp] at a
      obtain ⟨τ, ptr, a1, a2, a3, a4⟩ := h.last p' pipe' tid (hold p' pipe' (Ne.symm hpp) a) b c
      exact ⟨τ, ptr, stamp_old a1, a2, old_call a3, a4⟩
  · intro p' pipe' a
    rw [hheap] at a
    by_cases hpp : p = p'
    · subst hpp
      rw [List.getElem?_set_self hp] at a
      cases a
      exact hch
    · rw [List.getElem?_set_ne hpp] at a
      exact chained_append (h.chain p' pipe' (hold p' pipe' (Ne.symm hpp) a)) _

/-- A call of `Collect`. -/
theorem stamped_collect {lag : Int} {s s' : State} {o : Output} {pdu : TPDU} {set at_ : List Int} {now : Int} (hi : Inv s)
    (hto : s.timeout = true) (h : Stamped lag s set at_) (hprompt : ∀ (i : Nat) t τ, s.timers[i]? = some t → t.state = .armed →
      set[i]? = some τ → now ≤ τ + lag) (hout : Outcome s pdu s' o) :
    Stamped lag s' (stamp set s s' now) (at_ ++ [now]) ∧ ∀ d err, o = .returned d err → Chained lag (at_ ++ [now]) d := by
  have hids : ∀ {p : Nat} {pipe : Pipe}, s.heap[p]? = some pipe → ∀ q, some q ∈ pipe.segments → q.id < at_.length := by
    intro p pipe hp q hq
    obtain ⟨j, hj⟩ := List.mem_iff_getElem?.1 hq
    rw [h.calls]
    exact hi.ids p pipe j q hp hj
  have hfr : ∀ {k : Bytes} {p : Nat} {pipe : Pipe}, s.pipes.lookup k = some p → s.heap[p]? = some pipe → pipe.frags < pipe.segments.length := by
    intro k p pipe hl hp
    obtain ⟨pipe', a, _, b, _⟩ := hi.cur k p hl
    rw [hp] at a; cases a
    exact b
  have hcalls : s.calls = at_.length := h.calls.symm
  cases hout with
  | closed =>
    refine ⟨stamped_call h now, ?_⟩
    intro d err e; cases e
    intro q hq; cases hq
  | single =>
    refine ⟨stamped_call h now, ?_⟩
    intro d err e; cases e
    intro q hq
    left
    intro q' hq'
    simp only [List.mem_singleton, Option.some.injEq] at hq hq'
    rw [hq, hq']
    exact Nat.le_refl _
  | range =>
    refine ⟨stamped_call h now, ?_⟩
    intro d err e; cases e
    intro q hq; cases hq
  | dup =>
    refine ⟨stamped_call h now, ?_⟩
    intro d err e; cases e
    intro q hq; cases hq
  | join k n j p pipe timers hcl hseg hlk hpp hj hn htm hlt =>
    rcases htm with ⟨hf, _⟩ | ⟨tid, t, _, hcu, htt, hst, rfl⟩
    · rw [hto] at hf; cases hf
    · obtain ⟨τ, ptr, l1, l2, l3, l4⟩ := h.last p pipe tid hpp hcu (hfr hlk hpp)
      rw [hcalls]
      constructor
      · refine stamped_store (s := { s with calls := at_.length + 1, timers := s.timers.set tid { t with state := .stopped } }) h.timers hto
          (by simp) (by simp) (get_lt hpp) hj (hids hpp) ?_ (fun _ _ _ a => a) h
        exact chained_fill rfl hj (hids hpp) (h.chain p pipe hpp) ⟨τ, ptr, l2, l3, l4, hprompt tid t τ htt hst l1⟩
      · intro d err e; cases e
        intro q hq; cases hq
  | last k n j p pipe timers hcl hseg hlk hpp hj hn htm hlt =>
    rcases htm with ⟨hf, _⟩ | ⟨tid, t, _, hcu, htt, hst, rfl⟩
    · rw [hto] at hf; cases hf
    · obtain ⟨τ, ptr, l1, l2, l3, l4⟩ := h.last p pipe tid hpp hcu (hfr hlk hpp)
      rw [hcalls]
      have hch : Chained lag (at_ ++ [now]) (fill pipe j ⟨at_.length, pdu⟩).segments :=
        chained_fill rfl hj (hids hpp) (h.chain p pipe hpp) ⟨τ, ptr, l2, l3, l4, hprompt tid t τ htt hst l1⟩
      have hlen : pipe.segments.length = n := hn
      refine ⟨⟨stamp_length h.timers (by simp) now, by simp, ?_, ?_⟩, ?_⟩
      · intro p' pipe' tid' a b c
        simp only at a
        by_cases hp' : p = p'
        · subst hp'
          rw [List.getElem?_set_self (get_lt hpp)] at a
          cases a
          simp only [fill, List.length_set] at c
          omega
        · rw [List.getElem?_set_ne hp'] at a
          obtain ⟨τ, ptr, a1, a2, a3, a4⟩ := h.last p' pipe' tid' a b c
          exact ⟨τ, ptr, stamp_old a1, a2, old_call a3, a4⟩
      · intro p' pipe' a
        simp only at a
        by_cases hp' : p = p'
        · subst hp'
          rw [List.getElem?_set_self (get_lt hpp)] at a
          cases a
          exact hch
        · rw [List.getElem?_set_ne hp'] at a
          exact chained_append (h.chain p' pipe' a) _
      · intro d err e; cases e
        exact hch
  | fresh k n j hcl hseg hor =>
    rw [hcalls]
    have hjn : j < n := by
      obtain ⟨ref, hs, _⟩ := hseg
      have := hs.le
      omega
    constructor
    · refine stamped_store (s := { s with
          calls := at_.length + 1
          pipes := mapSet s.pipes k s.heap.length
          heap := s.heap ++ [⟨none, List.replicate n none, 0⟩] }) h.timers hto rfl (by simp) (by simp)
          (by simp [hjn]) ?_ (chained_one lag _ n j _) ?_ h
      · intro q hq
        have := List.eq_of_mem_replicate hq
        cases this
      · intro p' pipe' hne a
        simp only at a
        have hlt := get_lt a
        simp at hlt
        rw [List.getElem?_append_left (by omega)] at a
        exact a
    · intro d err e; cases e
      intro q hq; cases hq

/-- Every event keeps the stamps, and what is returned is chained. -/
theorem stamped_step {lag : Int} {s s' : State} {o : Output} {e : Event} {set at_ : List Int} {now : Int} (hi : Inv s)
    (hto : s.timeout = true) (h : Stamped lag s set at_) (he : FineEvent e)
    (hprompt : ∀ (i : Nat) t τ, s.timers[i]? = some t → t.state = .armed → set[i]? = some τ → now ≤ τ + lag)
    (hs : step s e = .ok (s', o)) :
    Stamped lag s' (stamp set s s' now) (at_ ++ times [(now, e)]) ∧ ∀ d err, o = .returned d err → Chained lag (at_ ++ times [(now, e)]) d := by
  cases e with
  | collect pdu =>
    obtain ⟨s1, o1, h1, h2⟩ := collect_outcome s hi pdu he
    have hs : Collect s pdu = .ok (s', o) := hs
    rw [h1] at hs; cases hs
    exact stamped_collect hi hto h hprompt h2
  | fire i =>
    obtain ⟨f1, f2, f3, f4, f5⟩ := fire_fields s i
    cases hs
    refine ⟨?_, fun d err e => by cases e⟩
    show Stamped lag _ _ (at_ ++ [])
    rw [List.append_nil]
    exact stamped_quiet h f2 f3 f5 now
  | expire i =>
    obtain ⟨f1, f2, f3, f4, f5⟩ := expire_fields s i
    cases hs
    refine ⟨?_, fun d err e => by cases e⟩
    show Stamped lag _ _ (at_ ++ [])
    rw [List.append_nil]
    exact stamped_quiet h f2 f3 f5 now
  | handle i =>
    have hst : handle s i = (s', o) := Except.ok.inj hs
    obtain ⟨f1, f2, f3, f4, f5⟩ := handle_fields s i
    have ho := handle_out s i
    rw [hst] at f2 f3 f5 ho
    constructor
    · show Stamped lag _ _ (at_ ++ [])
      rw [List.append_nil]
      exact stamped_quiet h f2 f3 f5 now
    · intro d err e
      subst e
      rcases ho with ho | ⟨_, ho⟩ <;> cases ho
  | close =>
    obtain ⟨f1, f2, f3, f4⟩ := close_fields s
    cases hs
    refine ⟨?_, fun d err e => by cases e⟩
    show Stamped lag _ _ (at_ ++ [])
    rw [List.append_nil]
    exact stamped_quiet h f2 f3 f4 now

theorem times_append (a b : History) : times (a ++ b) = times a ++ times b := by
  unfold times arrivals; rw [List.filterMap_append, List.map_append]

/-- What is returned is chained, over any history. -/
theorem stamped_run (lag : Int) (states : List TimerState) (harm : .armed ∈ states) : ∀ (h : History) (s : State) (set at_ : List Int),
    Inv s → s.timeout = true → Stamped lag s set at_ → (∀ e ∈ events h, FineEvent e) → Prompt states lag s set h →
    ∀ s' os, run s (events h) = .ok (s', os) →
      (∃ set', Stamped lag s' set' (at_ ++ times h) ∧
        ∀ now e h2, Prompt states lag s set (h ++ (now, e) :: h2) →
          ∀ (i : Nat) t τ, s'.timers[i]? = some t → t.state ∈ states → set'[i]? = some τ → now ≤ τ + lag) ∧
      ∀ (i : Nat) d err, os[i]? = some (.returned d err) → Chained lag (at_ ++ times h) d := by
  intro h
  induction h with
  | nil =>
    intro s set at_ _ _ hst _ _ s' os hr
    cases hr
    refine ⟨⟨set, by rw [show times [] = [] from rfl, List.append_nil]; exact hst, fun now e h2 hp => hp.1⟩, ?_⟩
    intro i d err hi; simp at hi
  | cons x h ih =>
    obtain ⟨now, e⟩ := x
    intro s set at_ hi hto hst hfine hprompt s' os hr
    have hev : events ((now, e) :: h) = e :: events h := rfl
    rw [hev] at hfine hr
    unfold run at hr
    obtain ⟨⟨s1, o⟩, h1, hr⟩ := bind_eq_ok.1 hr
    obtain ⟨⟨s2, os2⟩, h2, hr⟩ := bind_eq_ok.1 hr
    cases hr
    have hfe := hfine e List.mem_cons_self
    obtain ⟨s1', o', g1, g2, g3, _⟩ := step_ok hi hfe
    rw [h1] at g1; cases g1
    obtain ⟨hP, hprompt'⟩ := along_cons hprompt h1
    obtain ⟨hst1, hch⟩ := stamped_step hi hto hst hfe (fun i t τ a b c => hP i t τ a (by rw [b]; exact harm) c) h1
    have ht : at_ ++ times ((now, e) :: h) = (at_ ++ times [(now, e)]) ++ times h := by
      rw [show (now, e) :: h = [(now, e)] ++ h from rfl, times_append, List.append_assoc]
    obtain ⟨⟨set', i1, i2⟩, i3⟩ := ih s1 _ _ g2 (g3.trans hto) hst1 (fun e' he' => hfine e' (List.mem_cons_of_mem _ he')) hprompt' _ os2 h2
    rw [ht]
    refine ⟨⟨set', i1, ?_⟩, ?_⟩
    · intro now' e' h2' hp
      exact i2 now' e' h2' (along_cons hp h1).2
    · intro i d err hi'
      cases i with
      | zero =>
        simp only [List.getElem?_cons_zero, Option.some.injEq] at hi'
        exact chained_append (hch d err hi') _
      | succ i => exact i3 i d err (by simpa using hi')

end Verif.Proofs.Coll
