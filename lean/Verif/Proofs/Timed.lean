import Verif.Spec.Timed
import Verif.Proofs.Rounds
import Verif.Proofs.CollHist

/-! Histories of a Collector in real time. -/

namespace Verif.Proofs.Coll
open Verif.Model Verif.Model.Collector Verif.Spec Verif.Proofs
open Verif.Spec.Reassembly (Parts Input Result View Clock)
open Verif.Spec.Timed (History events Ordered arrivals Along Timely Prompt Brisk Chained)

/-- The next state of the list of creation times. -/
def stamp (set : List Int) (s s' : State) (now : Int) : List Int :=
  set ++ List.replicate (s'.timers.length - s.timers.length) now

theorem along_cons {P : Int → Event → State → List Int → Prop} {s s' : State} {set : List Int} {now : Int} {e : Event}
    {o : Output} {h : History} (ha : Along P s set ((now, e) :: h)) (hs : step s e = .ok (s', o)) :
    P now e s set ∧ Along P s' (stamp set s s' now) h := by
  unfold Along at ha
  rw [hs] at ha
  exact ha

theorem store_timers (s : State) (k : Bytes) (p : Nat) (pipe : Pipe) :
    (store s k p pipe).timers.length = s.timers.length + (if s.timeout then 1 else 0) := by
  unfold store
  split <;> simp [*]

theorem collect_timers {s s' : State} {o : Output} {pdu : TPDU} (h : Outcome s pdu s' o) : s.timers.length ≤ s'.timers.length := by
  have ht : ∀ {pipe : Pipe} {timers : List Timer}, (s.timeout = false ∧ pipe.cleanup = none ∧ timers = s.timers ∨
        ∃ (tid : Nat) (t : Timer), s.timeout = true ∧ pipe.cleanup = some tid ∧ s.timers[tid]? = some t ∧ t.state = .armed ∧
          timers = s.timers.set tid { t with state := .stopped }) → timers.length = s.timers.length := by
    rintro pipe timers (⟨_, _, rfl⟩ | ⟨_, _, _, _, _, _, rfl⟩) <;> simp
  cases h with
  | closed => exact Nat.le_refl _
  | single => exact Nat.le_refl _
  | range => exact Nat.le_refl _
  | dup => exact Nat.le_refl _
  | join k n j p pipe timers _ _ _ _ _ _ h =>
    rw [store_timers]
    have := ht h
    show _ ≤ timers.length + _
    omega
  | last k n j p pipe timers _ _ _ _ _ _ h => exact Nat.le_of_eq (ht h).symm
  | fresh =>
    rw [store_timers]
    exact Nat.le_add_right ..

theorem fire_fields (s : State) (i : Nat) : (fire s i).pipes = s.pipes ∧ (fire s i).heap = s.heap ∧
    (fire s i).timers.length = s.timers.length ∧ (fire s i).closed = s.closed ∧ (fire s i).calls = s.calls := by
  unfold fire; split
  · split <;> simp
  · simp

theorem expire_fields (s : State) (i : Nat) : (∀ k p, (expire s i).pipes.lookup k = some p → s.pipes.lookup k = some p) ∧
    (expire s i).heap = s.heap ∧
    (expire s i).timers.length = s.timers.length ∧ (expire s i).closed = s.closed ∧ (expire s i).calls = s.calls := by
  unfold expire; split
  · split
    · simp only [List.length_set, and_true]
      intro k p h
      split at h
      · rw [lookup_delete] at h
        split at h
        · cases h
        · exact h
      · exact h
    · simp
  · simp

theorem handle_fields (s : State) (i : Nat) : (handle s i).1.pipes = s.pipes ∧ (handle s i).1.heap = s.heap ∧
    (handle s i).1.timers.length = s.timers.length ∧ (handle s i).1.closed = s.closed ∧ (handle s i).1.calls = s.calls := by
  unfold handle; split
  · split <;> simp
  · simp

theorem handle_out (s : State) (i : Nat) : (handle s i).2 = .silent ∨ ∃ d, (handle s i).2 = .handled d := by
  unfold handle; split
  · split
    · simp only
      split
      · exact .inr ⟨_, rfl⟩
      · exact .inl rfl
    · exact .inl rfl
  · exact .inl rfl

theorem close_fields (s : State) : (Close s).pipes = s.pipes ∧ (Close s).heap = s.heap ∧
    (Close s).timers.length = s.timers.length ∧ (Close s).calls = s.calls := by
  unfold Close; split
  · simp
  · simp [stopAll_length]

theorem step_timers {s s' : State} {o : Output} {e : Event} (hi : Inv s) (he : FineEvent e) (h : step s e = .ok (s', o)) :
    s.timers.length ≤ s'.timers.length := by
  cases e with
  | collect pdu =>
    obtain ⟨s1, o1, h1, h2⟩ := collect_outcome s hi pdu he
    have h : Collect s pdu = .ok (s', o) := h
    rw [h1] at h; cases h
    exact collect_timers h2
  | fire i => cases h; exact Nat.le_of_eq (fire_fields s i).2.2.1.symm
  | expire i => cases h; exact Nat.le_of_eq (expire_fields s i).2.2.1.symm
  | handle i =>
    have hst : handle s i = (s', o) := Except.ok.inj h
    have := (handle_fields s i).2.2.1
    rw [hst] at this
    exact Nat.le_of_eq this.symm
  | close => cases h; exact Nat.le_of_eq (close_fields s).2.2.1.symm

theorem stamp_length {s s' : State} {set : List Int} (hs : set.length = s.timers.length) (hle : s.timers.length ≤ s'.timers.length)
    (now : Int) : (stamp set s s' now).length = s'.timers.length := by
  unfold stamp; simp; omega

theorem stamp_old {s s' : State} {set : List Int} {now τ : Int} {i : Nat} (h : set[i]? = some τ) : (stamp set s s' now)[i]? = some τ := by
  unfold stamp
  rw [List.getElem?_append_left (get_lt h)]
  exact h

theorem stamp_new {s s' : State} {set : List Int} (hs : set.length = s.timers.length) (hl : s'.timers.length = s.timers.length + 1)
    (now : Int) : (stamp set s s' now)[s.timers.length]? = some now := by
  unfold stamp
  rw [hl, ← hs]
  simp

/-! Segments in time are collected. -/

/-- The timer of the pending reassembly of key `k`, if there is one, was set at `last`. -/
def Last (k : Bytes) (s : State) (set : List Int) (last : Int) : Prop :=
  ∀ p pipe tid, s.pipes.lookup k = some p → s.heap[p]? = some pipe → pipe.cleanup = some tid → set[tid]? = some last

/-- What a call of `Collect` does to the reassembly of key `k`. -/
theorem collect_cur {s s' : State} {o : Output} {pdu : TPDU} (hi : Inv s) (h : Outcome s pdu s' o) {k : Bytes} {p tid : Nat} {pipe : Pipe}
    (hl : s'.pipes.lookup k = some p) (hp : s'.heap[p]? = some pipe) (hc : pipe.cleanup = some tid) :
    (s.pipes.lookup k = some p ∧ s.heap[p]? = some pipe ∧ (OfKey k pdu → o ≠ .returned [] none)) ∨
    (OfKey k pdu ∧ s'.timers.length = s.timers.length + 1 ∧ tid = s.timers.length ∧ o = .returned [] none) := by
  have ht : ∀ {pipe : Pipe} {timers : List Timer}, (s.timeout = false ∧ pipe.cleanup = none ∧ timers = s.timers ∨
        ∃ (tid : Nat) (t : Timer), s.timeout = true ∧ pipe.cleanup = some tid ∧ s.timers[tid]? = some t ∧ t.state = .armed ∧
          timers = s.timers.set tid { t with state := .stopped }) → timers.length = s.timers.length := by
    rintro pipe timers (⟨_, _, rfl⟩ | ⟨_, _, _, _, _, _, rfl⟩) <;> simp
  cases h with
  | closed => exact .inl ⟨hl, hp, fun _ h => by cases h⟩
  | single => exact .inl ⟨hl, hp, fun _ h => by cases h⟩
  | range => exact .inl ⟨hl, hp, fun _ h => by cases h⟩
  | dup => exact .inl ⟨hl, hp, fun _ h => by cases h⟩
  | join k' n j p' pipe' timers hcl hseg hlk hpp hj hn htm hlt =>
    by_cases hk : k = k'
    · subst hk
      right
      unfold store at hl hp ⊢
      rcases htm with ⟨hto, hno, rfl⟩ | ⟨tid', t, hto, hcu, htt, hst, rfl⟩
      · simp only [hto, Bool.false_eq_true, if_false] at hl hp
        rw [hlk] at hl; cases hl
        rw [List.getElem?_set_self (get_lt hpp)] at hp
        cases hp
        simp only [fill] at hc
        rw [hno] at hc; cases hc
      · simp only [hto, if_true] at hl hp ⊢
        rw [hlk] at hl; cases hl
        rw [List.getElem?_set_self (get_lt hpp)] at hp
        cases hp
        simp only [List.length_set, Option.some.injEq] at hc
        exact ⟨⟨n, j, hseg⟩, by simp, hc.symm, trivial⟩
    · left
      have hl' : s.pipes.lookup k = some p := by
        unfold store at hl
        split at hl <;> exact hl
      have hne : p' ≠ p := fun e => hk (hi.inj (e ▸ hl') (e ▸ hlk))
      refine ⟨hl', ?_, ?_⟩
      · unfold store at hp
        split at hp <;> · simp only at hp; rw [List.getElem?_set_ne hne] at hp; exact hp
      · rintro ⟨n', j', hk'⟩
        exact absurd (segK_inj hk' hseg).1 hk
  | last k' n j p' pipe' timers hcl hseg hlk hpp hj hn htm hlt =>
    left
    simp only at hl hp
    rw [lookup_delete] at hl
    split at hl
    · cases hl
    · rename_i hk
      have hne : p' ≠ p := fun e => hk (hi.inj (e ▸ hl) (e ▸ hlk))
      rw [List.getElem?_set_ne hne] at hp
      refine ⟨hl, hp, ?_⟩
      rintro ⟨n', j', hk'⟩
      exact absurd (segK_inj hk' hseg).1 hk
  | fresh k' n j hcl hseg hor =>
    by_cases hk : k = k'
    · subst hk
      right
      unfold store at hl hp ⊢
      rcases Bool.eq_false_or_eq_true s.timeout with hto | hto
      · simp only [hto, if_true] at hl hp ⊢
        rw [lookup_set, if_pos rfl] at hl; cases hl
        rw [List.getElem?_set_self (by simp)] at hp
        cases hp
        simp only [Option.some.injEq] at hc
        exact ⟨⟨n, j, hseg⟩, by simp, hc.symm, trivial⟩
      · simp only [hto, Bool.false_eq_true, if_false] at hl hp ⊢
        rw [lookup_set, if_pos rfl] at hl; cases hl
        rw [List.getElem?_set_self (by simp)] at hp
        cases hp
        simp only [fill] at hc
        cases hc
    · left
      have hl' : s.pipes.lookup k = some p := by
        unfold store at hl
        split at hl <;> · simp only at hl; rw [lookup_set, if_neg hk] at hl; exact hl
      obtain ⟨q, hq, _⟩ := hi.cur k p hl'
      have hlt := get_lt hq
      refine ⟨hl', ?_, ?_⟩
      · unfold store at hp
        split at hp <;>
        · simp only at hp
          rw [List.getElem?_set_ne (by omega), List.getElem?_append_left hlt] at hp
          exact hp
      · rintro ⟨n', j', hk'⟩
        exact absurd (segK_inj hk' hseg).1 hk

/-- Callbacks of timers that are not the one of the pending reassembly do not matter to it. -/
theorem at_expire (to ha : Bool) (n : Nat) {m : Ident} {l : List TPDU} {v : View} (h : At m l v) (j : Nat) :
    At m l (Reassembly.step to ha n v (.expire j)).1 := by
  unfold Reassembly.step
  simp only
  split
  · rename_i parts hj
    obtain ⟨hc, ⟨rfl, hp⟩ | ⟨hne, hp⟩⟩ := h
    · exact ⟨hc, .inl ⟨rfl, by simp [hp]⟩⟩
    · obtain ⟨clock, h1, h2⟩ := hp.parts
      refine ⟨hc, .inr ⟨hne, hc, clock, ?_, ?_⟩⟩
      · simp only [h1]
        rw [if_neg]
        simp only [Option.any_some, decide_eq_true_eq]
        rintro rfl
        unfold Reassembly.ranOut at h2
        simp only [hj] at h2
        cases h2
      · unfold Reassembly.ranOut at h2 ⊢
        cases clock with
        | none => rfl
        | some i =>
          simp only at h2 ⊢
          by_cases hij : j = i
          · subst hij
            rw [hj] at h2; cases h2
          · rw [List.getElem?_set_ne hij]; exact h2
  · exact h

theorem at_handle (to ha : Bool) (n : Nat) {m : Ident} {l : List TPDU} {v : View} (h : At m l v) (j : Nat) :
    At m l (Reassembly.step to ha n v (.handle j)).1 := by
  unfold Reassembly.step
  simp only
  split
  · rename_i parts hj
    obtain ⟨hc, ⟨rfl, hp⟩ | ⟨hne, hp⟩⟩ := h
    · exact ⟨hc, .inl ⟨rfl, hp⟩⟩
    · obtain ⟨clock, h1, h2⟩ := hp.parts
      refine ⟨hc, .inr ⟨hne, hc, clock, h1, ?_⟩⟩
      unfold Reassembly.ranOut at h2 ⊢
      cases clock with
      | none => rfl
      | some i =>
        simp only at h2 ⊢
        by_cases hij : j = i
        · subst hij
          rw [List.getElem?_set_self (get_lt hj)]
        · rw [List.getElem?_set_ne hij]; exact h2
  · exact h

theorem at_nil {m : Ident} {s : State} (hi : Inv s) (h : At m [] (view (keyOf m) s)) : s.pipes.lookup (keyOf m) = none := by
  obtain ⟨_, ⟨_, h⟩ | ⟨h, _⟩⟩ := h
  · exact view_idle hi h
  · exact absurd rfl h

theorem answers_quiet (m : Ident) (e : Event) (es : List Event) (o : Output) (os : List Output) (he : ∀ pdu, e ≠ .collect pdu)
    (ho : ∀ d err, o ≠ .returned d err) : Timed.answers m (e :: es) (o :: os) = Timed.answers m es os := by
  unfold Timed.answers
  have h1 : collected (e :: es) = collected es := by
    cases e with
    | collect pdu => exact absurd rfl (he pdu)
    | _ => rfl
  have h2 : replies (o :: os) = replies os := by
    cases o with
    | returned d err => exact absurd rfl (ho d err)
    | _ => rfl
  rw [h1, h2]

theorem answers_collect (m : Ident) (pdu : TPDU) (es : List Event) (d : List (Option Ptr)) (err : Option Err) (os : List Output) :
    Timed.answers m (.collect pdu :: es) (.returned d err :: os) =
      (if (segOf m pdu).isSome then [(pdus d, err)] else []) ++ Timed.answers m es os := by
  unfold Timed.answers
  have h1 : collected (.collect pdu :: es) = pdu :: collected es := rfl
  have h2 : replies (.returned d err :: os) = (d, err) :: replies os := rfl
  rw [h1, h2, List.zip_cons_cons, List.filter_cons]
  split <;> simp

theorem segs_quiet (m : Ident) (now : Int) (e : Event) (h : History) (he : ∀ pdu, e ≠ .collect pdu) :
    Timed.segs m ((now, e) :: h) = Timed.segs m h := by
  unfold Timed.segs arrivals
  cases e with
  | collect pdu => exact absurd rfl (he pdu)
  | _ => rfl

theorem segs_collect (m : Ident) (now : Int) (pdu : TPDU) (h : History) :
    Timed.segs m ((now, .collect pdu) :: h) = (if (segOf m pdu).isSome then [(now, pdu)] else []) ++ Timed.segs m h := by
  unfold Timed.segs
  have : arrivals ((now, .collect pdu) :: h) = (now, pdu) :: arrivals h := rfl
  rw [this, List.filter_cons]
  split <;> simp

theorem segs_time {m : Ident} {h : History} {x : Int × TPDU} (hx : x ∈ Timed.segs m h) : x.1 ∈ h.map (·.1) := by
  obtain ⟨h1, _⟩ := List.mem_filter.1 hx
  obtain ⟨y, h2, h3⟩ := List.mem_filterMap.1 h1
  refine List.mem_map.2 ⟨y, h2, ?_⟩
  split at h3
  · cases h3; rfl
  · cases h3

theorem answers_none (m : Ident) (h : History) (hs : Timed.segs m h = []) (os : List Output) : Timed.answers m (events h) os = [] := by
  unfold Timed.answers
  rw [List.map_eq_nil_iff, List.filter_eq_nil_iff]
  rintro ⟨pdu, r⟩ hx hso
  have hc := (List.of_mem_zip hx).1
  obtain ⟨e, he, hee⟩ := List.mem_filterMap.1 hc
  obtain ⟨⟨now, e'⟩, hy, rfl⟩ := List.mem_map.1 he
  simp only at hee
  cases e' with
  | collect q =>
    have hq : q = pdu := Option.some.inj hee
    subst hq
    have : (now, q) ∈ Timed.segs m h := List.mem_filter.2 ⟨List.mem_filterMap.2 ⟨_, hy, rfl⟩, hso⟩
    rw [hs] at this; cases this
  | _ => cases hee

theorem collect_returned {s s' : State} {o : Output} {pdu : TPDU} (h : Outcome s pdu s' o) : ∃ d err, o = .returned d err := by
  cases h <;> exact ⟨_, _, rfl⟩

/-- Segments in time are answered as if there were no timeout. -/
theorem timed_answers (d : Int) (m : Ident) (hm : 2 ≤ m.count) : ∀ (h : History) (s : State) (set : List Int) (since : List TPDU) (last : Int),
    Inv s → set.length = s.timers.length → At m since (view (keyOf m) s) → ¬ Covered m since → Last (keyOf m) s set last →
    (∀ e ∈ events h, FineEvent e) → (∀ e ∈ events h, e ≠ .close) → Ordered h → Timely d s set h → Brisk d m since last (Timed.segs m h) →
    ∃ s' os, run s (events h) = .ok (s', os) ∧ Timed.answers m (events h) os = (rounds m since ((Timed.segs m h).map (·.2))).1 := by
  intro h
  induction h with
  | nil => intro s set since last _ _ _ _ _ _ _ _ _ _; exact ⟨s, [], rfl, rfl⟩
  | cons x h ih =>
    obtain ⟨now, e⟩ := x
    intro s set since last hi hlen hat hcov hlast hfine hopen hord htime hbrisk
    have hev : events ((now, e) :: h) = e :: events h := rfl
    rw [hev] at hfine hopen ⊢
    have hfe := hfine e List.mem_cons_self
    have hfine' : ∀ e ∈ events h, FineEvent e := fun e' he' => hfine e' (List.mem_cons_of_mem _ he')
    have hopen' : ∀ e ∈ events h, e ≠ .close := fun e' he' => hopen e' (List.mem_cons_of_mem _ he')
    have hord' : Ordered h := (List.pairwise_cons.1 hord).2
    have hafter : ∀ y ∈ Timed.segs m h, now ≤ y.1 := fun y hy => (List.pairwise_cons.1 hord).1 _ (segs_time hy)
    obtain ⟨s1, o, hstep, hi1, _, _, hview⟩ := step_ok hi hfe
    obtain ⟨hP, htime'⟩ := along_cons htime hstep
    have hlen1 := stamp_length (s' := s1) hlen (step_timers hi hfe hstep) now
    -- the rest of the history, from what the event leads to
    have go : ∀ (since' : List TPDU) (last' : Int), At m since' (view (keyOf m) s1) → ¬ Covered m since' →
        Last (keyOf m) s1 (stamp set s s1 now) last' → Brisk d m since' last' (Timed.segs m h) →
        ∃ s' os, run s (e :: events h) = .ok (s', o :: os) ∧
          Timed.answers m (events h) os = (rounds m since' ((Timed.segs m h).map (·.2))).1 := by
      intro since' last' h1 h2 h3 h4
      obtain ⟨s', os, hr, ha⟩ := ih s1 _ since' last' hi1 hlen1 h1 h2 h3 hfine' hopen' hord' htime' h4
      refine ⟨s', os, ?_, ha⟩
      unfold run
      rw [hstep]
      simp only [ok_bind]
      rw [hr]
      rfl
    have quiet : (∀ pdu, e ≠ .collect pdu) → (∀ d err, o ≠ .returned d err) → At m since (view (keyOf m) s1) →
        Last (keyOf m) s1 (stamp set s s1 now) last →
        ∃ s' os, run s (e :: events h) = .ok (s', os) ∧
          Timed.answers m (e :: events h) os = (rounds m since ((Timed.segs m ((now, e) :: h)).map (·.2))).1 := by
      intro he ho h1 h2
      rw [segs_quiet m now e h he] at hbrisk ⊢
      obtain ⟨s', os, h3, h4⟩ := go since last h1 hcov h2 hbrisk
      exact ⟨s', o :: os, h3, by rw [answers_quiet m e _ o os he ho]; exact h4⟩
    cases e with
    | close => exact absurd rfl (hopen .close List.mem_cons_self)
    | collect pdu =>
      obtain ⟨s1', o', hcol, hout⟩ := collect_outcome s hi pdu hfe
      have hstep' : Collect s pdu = .ok (s1, o) := hstep
      rw [hcol] at hstep'; cases hstep'
      obtain ⟨dd, err, rfl⟩ := collect_returned hout
      rw [segs_collect] at hbrisk ⊢
      have hv := hview m
      unfold seen at hv
      simp only at hv
      cases hso : segOf m pdu with
      | none =>
        rw [hso] at hv
        simp only [Option.map_none] at hv
        rw [hso] at hbrisk
        simp only [Option.isSome_none, Bool.false_eq_true, if_false, List.nil_append] at hbrisk ⊢
        obtain ⟨s', os, h3, h4⟩ := go since last (by rw [hv]; exact hat) hcov (by
          intro p pipe tid a b c
          rcases collect_cur hi hout a b c with ⟨a', b', _⟩ | ⟨hk, _⟩
          · exact stamp_old (hlast p pipe tid a' b' c)
          · exact absurd hk (segOf_none hso)) hbrisk
        refine ⟨s', _, h3, ?_⟩
        rw [answers_collect, hso]
        simpa using h4
      | some seq =>
        rw [hso] at hv
        simp only [Option.map_some] at hv
        have hseg := segOf_some.1 hso
        have hkey : OfKey (keyOf m) pdu := ⟨_, _, segK_of hseg⟩
        rw [hso] at hbrisk
        simp only [Option.isSome_some, if_true, List.cons_append, List.nil_append, List.map_cons] at hbrisk ⊢
        unfold Brisk at hbrisk
        obtain ⟨_, hbrisk⟩ := hbrisk
        have hv : Reassembly.segment s.timeout m.count (view (keyOf m) s) seq pdu = (view (keyOf m) s1, .returned (pdus dd) err) := hv
        obtain ⟨r1, r2⟩ := round_step s.timeout m (view (keyOf m) s) since pdu seq hseg hat hcov
        rw [hv] at r1 r2
        by_cases hc : Covered m (since ++ [pdu])
        · rw [if_pos ((covered_parts m _).1 hc)] at hbrisk
          obtain ⟨a1, a2⟩ := r1 hc
          simp only at a1 a2
          obtain ⟨s', os, h3, h4⟩ := go [] now a1 (not_covered_nil hm) (by
            intro p pipe tid a b c
            rw [at_nil hi1 a1] at a; cases a) hbrisk
          refine ⟨s', _, h3, ?_⟩
          rw [answers_collect, hso, rounds_cons_covered hc, h4]
          simp only [Result.returned.injEq] at a2
          simp [a2.1, a2.2]
        · rw [if_neg (fun h => hc ((covered_parts m _).2 h))] at hbrisk
          obtain ⟨a1, a2⟩ := r2 hc
          simp only at a1 a2
          simp only [Result.returned.injEq] at a2
          obtain ⟨s', os, h3, h4⟩ := go (since ++ [pdu]) _ a1 hc (by
            intro p pipe tid a b c
            rcases collect_cur hi hout a b c with ⟨a', b', hno⟩ | ⟨_, hl1, rfl, ho⟩
            · split
              · exact stamp_old (hlast p pipe tid a' b' c)
              · rename_i hd
                rw [if_neg hd] at a2
                exfalso
                apply hno hkey
                have : dd = [] := by have := a2.1; unfold pdus at this; exact List.map_eq_nil_iff.1 this
                rw [this, a2.2]
            · rw [if_neg]
              · exact stamp_new hlen hl1 now
              · intro hd
                rw [if_pos hd] at a2
                cases ho
                cases a2.2) hbrisk
          refine ⟨s', _, h3, ?_⟩
          rw [answers_collect, hso, rounds_cons_not hc, h4]
          simp [a2.1, a2.2]
    | fire i =>
      cases hstep
      obtain ⟨f1, f2, f3, f4, f5⟩ := fire_fields s i
      have hl' : Last (keyOf m) (fire s i) (stamp set s (fire s i) now) last := by
        intro p pipe tid a b c
        rw [f1] at a; rw [f2] at b
        exact stamp_old (hlast p pipe tid a b c)
      by_cases harm : ∃ t, s.timers[i]? = some t ∧ t.state = .armed ∧ t.key = keyOf m
      · -- the timer of the pending reassembly: nothing of the message arrives any more
        obtain ⟨t, ht, hst, hk⟩ := harm
        obtain ⟨pipe, hp, hok, hns, harmed, _⟩ := hi.tim i t ht
        have hcl := (hns (by rw [hst]; simp)).1
        have hlk := (harmed hst).1
        rw [hk] at hlk
        have hset := hlast _ _ _ hlk hp hcl
        have hdue := hP i t last rfl ht hst hset
        have hne : since ≠ [] := by
          rintro rfl
          rw [at_nil hi hat] at hlk; cases hlk
        have hno : Timed.segs m h = [] := by
          cases hsg : Timed.segs m h with
          | nil => rfl
          | cons y l =>
            exfalso
            rw [segs_quiet m now _ h (by simp), hsg] at hbrisk
            unfold Brisk at hbrisk
            have h1 := hbrisk.1 hne
            have h2 := hafter y (by rw [hsg]; simp)
            omega
        obtain ⟨s', os, hr, _⟩ := run_ok (events ((now, .fire i) :: h)) hi hfine
        refine ⟨s', os, hr, ?_⟩
        have hno' : Timed.segs m ((now, .fire i) :: h) = [] := by rw [segs_quiet m now _ h (by simp)]; exact hno
        rw [← hev, answers_none m _ hno', hno']
        rfl
      · refine quiet (by simp) (by simp) ?_ hl'
        by_cases hk : ∀ t, s.timers[i]? = some t → t.key ≠ keyOf m
        · rw [view_fire_other s _ i hk]; exact hat
        · have : fire s i = s := by
            unfold fire
            split
            · rename_i t ht
              rw [if_neg]
              intro hst
              apply hk
              intro t' ht' hk'
              rw [ht] at ht'; cases ht'
              exact harm ⟨t, ht, hst, hk'⟩
            · rfl
          rw [this]; exact hat
    | expire i =>
      cases hstep
      obtain ⟨f1, f2, f3, f4, f5⟩ := expire_fields s i
      refine quiet (by simp) (by simp) ?_ ?_
      · have hv := hview m
        cases hs : seen m s (.expire i) with
        | none => rw [hs] at hv; simp only at hv; rw [hv]; exact hat
        | some inp =>
          rw [hs] at hv
          simp only at hv
          unfold seen at hs
          simp only [Option.map_eq_some_iff] at hs
          obtain ⟨j, _, rfl⟩ := hs
          have := at_expire s.timeout s.handler m.count hat j
          rw [hv] at this
          exact this
      · intro p pipe tid a b c
        rw [f2] at b
        exact stamp_old (hlast p pipe tid (f1 _ _ a) b c)
    | handle i =>
      have hst : handle s i = (s1, o) := Except.ok.inj hstep
      obtain ⟨f1, f2, f3, f4, f5⟩ := handle_fields s i
      have ho := handle_out s i
      rw [hst] at f1 f2 f3 f4 f5 ho
      refine quiet (by simp) ?_ ?_ ?_
      · intro d err hd
        subst hd
        rcases ho with ho | ⟨_, ho⟩ <;> cases ho
      · have hv := hview m
        cases hs : seen m s (.handle i) with
        | none => rw [hs] at hv; simp only at hv; rw [hv]; exact hat
        | some inp =>
          rw [hs] at hv
          simp only at hv
          unfold seen at hs
          simp only [Option.map_eq_some_iff] at hs
          obtain ⟨j, _, rfl⟩ := hs
          have := at_handle s.timeout s.handler m.count hat j
          rw [hv] at this
          exact this
      · intro p pipe tid a b c
        simp only at f1 f2
        rw [f1] at a; rw [f2] at b
        exact stamp_old (hlast p pipe tid a b c)

/-- What a message sees of a history, as far as returned, is what the calls given segments of it answer. -/
theorem whole_answers (m : Ident) : ∀ (es : List Event) {s s' : State} {os : List Output}, Inv s → (∀ e ∈ es, FineEvent e) →
    run s es = .ok (s', os) → whole ((watch m s es).map (·.2)) = full (Timed.answers m es os) := by
  intro es
  induction es with
  | nil => intro s s' os _ _ h; cases h; rfl
  | cons e es ih =>
    intro s s' os hi hf h
    unfold run at h
    obtain ⟨⟨s1, o⟩, h1, h⟩ := bind_eq_ok.1 h
    obtain ⟨⟨s2, os2⟩, h2, h⟩ := bind_eq_ok.1 h
    cases h
    obtain ⟨s1', o', g1, g2, _⟩ := step_ok hi (hf e List.mem_cons_self)
    rw [h1] at g1; cases g1
    rw [watch_cons h1, List.map_append, whole_append, ih g2 (fun e' he' => hf e' (List.mem_cons_of_mem _ he')) h2]
    have quiet : (∀ pdu, e ≠ .collect pdu) → (∀ d err, o ≠ .returned d err) →
        whole (List.map (·.2) ((seen m s e).map (fun i => (i, result o))).toList) ++ full (Timed.answers m es os2) =
          full (Timed.answers m (e :: es) (o :: os2)) := by
      intro he ho
      rw [answers_quiet m e es o os2 he ho]
      cases seen m s e with
      | none => rfl
      | some i =>
        cases o with
        | returned d err => exact absurd rfl (ho d err)
        | _ => rfl
    cases e with
    | collect pdu =>
      obtain ⟨s1', o', hcol, hout⟩ := collect_outcome s hi pdu (hf _ List.mem_cons_self)
      have h1' : Collect s pdu = .ok (s1, o) := h1
      rw [hcol] at h1'; cases h1'
      obtain ⟨dd, err, rfl⟩ := collect_returned hout
      rw [answers_collect]
      unfold seen full
      simp only
      cases segOf m pdu with
      | none => simp [whole]
      | some seq =>
        by_cases hd : pdus dd = [] <;> simp [whole, result, hd]
    | fire i => cases h1; exact quiet (by simp) (by simp)
    | expire i => cases h1; exact quiet (by simp) (by simp)
    | handle i =>
      have hst : handle s i = (s1, o) := Except.ok.inj h1
      have ho := handle_out s i
      rw [hst] at ho
      refine quiet (by simp) ?_
      intro d err hd
      subst hd
      rcases ho with ho | ⟨_, ho⟩ <;> cases ho
    | close => cases h1; exact quiet (by simp) (by simp)

/-! Sufficient conditions. -/

/-- Segments that all arrive less than `d` after some time that is not after any of them. -/
theorem brisk_within (d : Int) (m : Ident) (t : Int) : ∀ (l : List (Int × TPDU)) (since : List TPDU) (last : Int), (since ≠ [] → t ≤ last) →
    (∀ x ∈ l, t ≤ x.1 ∧ x.1 < t + d) → Brisk d m since last l := by
  intro l
  induction l with
  | nil => intros; trivial
  | cons x l ih =>
    obtain ⟨now, pdu⟩ := x
    intro since last hl hall
    obtain ⟨h1, h2⟩ := hall _ List.mem_cons_self
    simp only at h1 h2
    have hall' : ∀ x ∈ l, t ≤ x.1 ∧ x.1 < t + d := fun x hx => hall x (List.mem_cons_of_mem _ hx)
    unfold Brisk
    refine ⟨fun hne => by have := hl hne; omega, ?_⟩
    split
    · exact ih [] now (fun h => absurd rfl h) hall'
    · apply ih _ _ _ hall'
      intro _
      split
      · rename_i h
        obtain ⟨q, hq, _⟩ := h
        exact hl (List.ne_nil_of_mem hq)
      · exact h1

/-- Segments of different numbers, each less than `d` after the one before. -/
theorem brisk_gaps (d : Int) (m : Ident) : ∀ (l : List (Int × TPDU)) (since : List TPDU) (last : Int),
    (since ≠ [] → ∀ x ∈ l.head?, x.1 < last + d) → (∀ (i : Nat) a b, l[i]? = some a → l[i + 1]? = some b → b.1 < a.1 + d) →
    l.Pairwise (fun a b => segOf m a.2 ≠ segOf m b.2) → (∀ q ∈ since, ∀ x ∈ l, segOf m q ≠ segOf m x.2) → Brisk d m since last l := by
  intro l
  induction l with
  | nil => intros; trivial
  | cons x l ih =>
    obtain ⟨now, pdu⟩ := x
    intro since last hl hch hpw hd
    have hpw' := List.pairwise_cons.1 hpw
    have hhead : ∀ x ∈ l.head?, x.1 < now + d := by
      intro x hx
      cases l with
      | nil => cases hx
      | cons y l =>
        cases hx
        exact hch 0 (now, pdu) _ rfl rfl
    have hch' : ∀ (i : Nat) a b, l[i]? = some a → l[i + 1]? = some b → b.1 < a.1 + d :=
      fun i a b h1 h2 => hch (i + 1) a b (by simpa using h1) (by simpa using h2)
    unfold Brisk
    refine ⟨fun hne => hl hne _ rfl, ?_⟩
    split
    · exact ih [] now (fun h => absurd rfl h) hch' hpw'.2 (by simp)
    · rw [if_neg]
      · refine ih _ now (fun _ => hhead) hch' hpw'.2 ?_
        intro q hq y hy
        rcases List.mem_append.1 hq with hq | hq
        · exact hd q hq y (List.mem_cons_of_mem _ hy)
        · simp only [List.mem_singleton] at hq
          subst hq
          exact hpw'.1 y hy
      · rintro ⟨q, hq, he⟩
        exact hd q hq (now, pdu) List.mem_cons_self he

end Verif.Proofs.Coll
