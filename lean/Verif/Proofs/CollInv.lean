import Verif.Proofs.Collector

/-! The invariant of the Collector is preserved by every step. -/

namespace Verif.Proofs.Coll
open Verif.Model Verif.Model.Collector Verif.Spec Verif.Proofs

theorem get_set {α : Type} {l : List α} {i j : Nat} {x y : α} :
    (l.set i x)[j]? = some y ↔ (i = j ∧ i < l.length ∧ y = x) ∨ (i ≠ j ∧ l[j]? = some y) := by
  rw [List.getElem?_set]
  by_cases h : i = j
  · by_cases h2 : i < l.length
    · simp only [h, if_true]
      rw [if_pos (by omega)]
      constructor
      · intro e; cases e; exact .inl ⟨trivial, by omega, rfl⟩
      · rintro (⟨_, _, rfl⟩ | ⟨h, _⟩)
        · rfl
        · exact absurd rfl h
    · simp only [h, if_true]
      rw [if_neg (by omega)]
      constructor
      · intro e; cases e
      · rintro (⟨_, h, rfl⟩ | ⟨h, _⟩)
        · omega
        · exact absurd rfl h
  · simp [h]

theorem get_snoc {α : Type} {l : List α} {j : Nat} {x y : α} :
    (l ++ [x])[j]? = some y ↔ (j = l.length ∧ y = x) ∨ l[j]? = some y := by
  rw [List.getElem?_append]
  by_cases h : j < l.length
  · rw [if_pos h]
    constructor
    · exact .inr
    · rintro (⟨h', _⟩ | h')
      · omega
      · exact h'
  · rw [if_neg h]
    have hn : l[j]? = none := List.getElem?_eq_none (by omega)
    rw [hn]
    by_cases h2 : j = l.length
    · subst h2
      simp [eq_comm]
    · rw [List.getElem?_eq_none (by simp; omega)]
      simp [h2]

theorem get_lt {α : Type} {l : List α} {i : Nat} {x : α} (h : l[i]? = some x) : i < l.length :=
  (List.getElem?_eq_some_iff.1 h).1

theorem pipeOk_fill {k : Bytes} {pipe : Pipe} {j n : Nat} {ptr : Ptr} (hfr : pipe.frags = pipe.segments.countP Option.isSome)
    (hseg : ∀ (j : Nat) (ptr : Ptr), pipe.segments[j]? = some (some ptr) → SegK k pipe.segments.length j ptr.pdu)
    (hj : pipe.segments[j]? = some none) (hn : pipe.segments.length = n) (hp : SegK k n j ptr.pdu) :
    PipeOk k (fill pipe j ptr) where
  nonempty := ⟨j, ptr, get_set.2 (.inl ⟨rfl, get_lt hj, rfl⟩)⟩
  frags := by
    have hlt := get_lt hj
    have he : pipe.segments[j] = none := by
      rw [List.getElem?_eq_getElem hlt] at hj; exact Option.some.inj hj
    show pipe.frags + 1 = (pipe.segments.set j (some ptr)).countP _
    rw [List.countP_set hlt, he, hfr]
    simp
  seg := by
    intro i q h
    rcases get_set.1 h with ⟨rfl, _, h2⟩ | ⟨_, h2⟩
    · cases h2
      show SegK k (pipe.segments.set j (some ptr)).length j ptr.pdu
      rw [List.length_set, hn]; exact hp
    · have := hseg i q h2
      show SegK k (pipe.segments.set j (some ptr)).length i q.pdu
      rw [List.length_set]; exact this

/-- Identifiers stay unique when one pointer made by the current call is added. -/
theorem ids_grow {s : State} (hi : Inv s) (heap' : List Pipe) (p0 j0 : Nat)
    (h : ∀ (p : Nat) (pipe : Pipe) (j : Nat) (ptr : Ptr), heap'[p]? = some pipe → pipe.segments[j]? = some (some ptr) →
      (∃ old, s.heap[p]? = some old ∧ old.segments[j]? = some (some ptr)) ∨ (p = p0 ∧ j = j0 ∧ ptr.id = s.calls)) :
    (∀ (p : Nat) (pipe : Pipe) (j : Nat) (ptr : Ptr), heap'[p]? = some pipe → pipe.segments[j]? = some (some ptr) →
      ptr.id < s.calls + 1) ∧
    (∀ (p : Nat) (pipe : Pipe) (j : Nat) (ptr : Ptr) (p' : Nat) (pipe' : Pipe) (j' : Nat) (ptr' : Ptr),
      heap'[p]? = some pipe → pipe.segments[j]? = some (some ptr) →
      heap'[p']? = some pipe' → pipe'.segments[j']? = some (some ptr') → ptr.id = ptr'.id → p = p' ∧ j = j') := by
  constructor
  · intro p pipe j ptr h1 h2
    rcases h p pipe j ptr h1 h2 with ⟨old, a, b⟩ | ⟨_, _, e⟩
    · have := hi.ids p old j ptr a b; omega
    · omega
  · intro p pipe j ptr p' pipe' j' ptr' h1 h2 h1' h2' he
    rcases h p pipe j ptr h1 h2 with ⟨old, a, b⟩ | ⟨e1, e2, e⟩
    · have := hi.ids p old j ptr a b
      rcases h p' pipe' j' ptr' h1' h2' with ⟨old', a', b'⟩ | ⟨_, _, e'⟩
      · exact hi.uniq p old j ptr p' old' j' ptr' a b a' b' he
      · omega
    · rcases h p' pipe' j' ptr' h1' h2' with ⟨old', a', b'⟩ | ⟨e1', e2', e'⟩
      · have := hi.ids p' old' j' ptr' a' b'; omega
      · omega

theorem fill_grow {s : State} {p0 j0 : Nat} {pipe0 : Pipe} {pdu : TPDU} {c : Option Nat} (hp : s.heap[p0]? = some pipe0) :
    ∀ (p : Nat) (pipe : Pipe) (j : Nat) (ptr : Ptr),
      (s.heap.set p0 { fill pipe0 j0 ⟨s.calls, pdu⟩ with cleanup := c })[p]? = some pipe →
      pipe.segments[j]? = some (some ptr) →
      (∃ old, s.heap[p]? = some old ∧ old.segments[j]? = some (some ptr)) ∨ (p = p0 ∧ j = j0 ∧ ptr.id = s.calls) := by
  intro p pipe j ptr h1 h2
  rcases get_set.1 h1 with ⟨rfl, _, rfl⟩ | ⟨_, h⟩
  · rcases get_set.1 h2 with ⟨rfl, _, h3⟩ | ⟨_, h3⟩
    · cases h3; exact .inr ⟨rfl, rfl, rfl⟩
    · exact .inl ⟨pipe0, hp, h3⟩
  · exact .inl ⟨pipe, h, h2⟩

/-- The hypothesis on timers in `Outcome`. -/
def Stopped (s : State) (pipe : Pipe) (timers : List Timer) : Prop :=
  s.timeout = false ∧ pipe.cleanup = none ∧ timers = s.timers ∨
    ∃ (tid : Nat) (t : Timer), s.timeout = true ∧ pipe.cleanup = some tid ∧ s.timers[tid]? = some t ∧ t.state = .armed ∧
      timers = s.timers.set tid { t with state := .stopped }

theorem inv_join {s : State} (hi : Inv s) {pdu : TPDU} {k : Bytes} {n j p : Nat} {pipe : Pipe} {timers : List Timer}
    (hseg : SegK k n j pdu) (hl : s.pipes.lookup k = some p) (hp : s.heap[p]? = some pipe)
    (hj : pipe.segments[j]? = some none) (hlen : pipe.segments.length = n) (hs : Stopped s pipe timers)
    (hn : pipe.frags + 1 < n) (hc : s.closed = false) :
    Inv (store { s with calls := s.calls + 1, timers := timers } k p (fill pipe j ⟨s.calls, pdu⟩)) := by
  obtain ⟨pipe', hp', hok, hinc, htf, htt⟩ := hi.cur k p hl
  rw [hp] at hp'; cases hp'
  have hplt := get_lt hp
  have hok' : PipeOk k (fill pipe j ⟨s.calls, pdu⟩) := pipeOk_fill hok.frags hok.seg hj hlen hseg
  have hinc' : (fill pipe j ⟨s.calls, pdu⟩).frags < (fill pipe j ⟨s.calls, pdu⟩).segments.length := by
    show pipe.frags + 1 < (pipe.segments.set j _).length
    rw [List.length_set, hlen]; exact hn
  rcases hs with ⟨ht, hcl, rfl⟩ | ⟨tid, t, ht, hcl, htid, harm, rfl⟩
  · have hnt := hi.notime ht
    have hgrow := ids_grow hi _ p j (fill_grow (j0 := j) (pdu := pdu) (c := pipe.cleanup) hp)
    unfold store
    simp only [ht, Bool.false_eq_true, if_false]
    exact {
      cur := by
        intro k' p' hl'
        by_cases hpp : p = p'
        · subst hpp
          have := hi.inj hl hl'
          subst this
          exact ⟨_, get_set.2 (.inl ⟨rfl, hplt, rfl⟩), hok', hinc', fun _ => hcl, by intro h; simp at h⟩
        · obtain ⟨pp, a, b, c, d, e⟩ := hi.cur k' p' hl'
          exact ⟨pp, get_set.2 (.inr ⟨hpp, a⟩), b, c, fun _ => d ht, by intro h; simp at h⟩
      heap := by
        intro p' pp h
        rcases get_set.1 h with ⟨rfl, _, rfl⟩ | ⟨_, h'⟩
        · exact ⟨⟨k, hok'⟩, .inr (.inl ⟨k, hl⟩)⟩
        · exact hi.heap p' pp h'
      tim := by
        intro i t h
        rw [hnt] at h; simp at h
      cl := by
        intro p' pp tid h h2
        rcases get_set.1 h with ⟨rfl, _, rfl⟩ | ⟨_, h'⟩
        · have : pipe.cleanup = some tid := h2
          rw [hcl] at this; cases this
        · exact hi.cl p' pp tid h' h2
      notime := fun _ => hnt
      ids := hgrow.1
      uniq := hgrow.2 }
  · have hgrow := ids_grow hi _ p j (fill_grow (j0 := j) (pdu := pdu) (c := some s.timers.length) hp)
    have hlt := get_lt htid
    obtain ⟨pt, hpt1, hpt2, hpt3, hpt4, hpt5⟩ := hi.tim tid t htid
    obtain ⟨t', e1, e2⟩ := hi.cl p pipe tid hp hcl
    rw [htid] at e1; cases e1
    have hkt : t.key = k := by
      rw [e2, hp] at hpt1; cases hpt1
      exact pipeOk_key hpt2 hok
    unfold store
    simp only [ht, if_true, List.length_set]
    exact {
      cur := by
        intro k' p' hl'
        by_cases hpp : p = p'
        · subst hpp
          have := hi.inj hl hl'
          subst this
          exact ⟨_, get_set.2 (.inl ⟨rfl, hplt, rfl⟩), (pipeOk_cleanup hok' _), hinc', by intro h; simp at h,
            fun _ => ⟨_, _, rfl, get_snoc.2 (.inl ⟨by simp, rfl⟩), .inl rfl⟩⟩
        · obtain ⟨pp, a, b, c, d, e⟩ := hi.cur k' p' hl'
          obtain ⟨ti, tt, f1, f2, f3⟩ := e ht
          refine ⟨pp, get_set.2 (.inr ⟨hpp, a⟩), b, c, by intro h; simp at h,
            fun _ => ⟨ti, tt, f1, get_snoc.2 (.inr (get_set.2 (.inr ⟨?_, f2⟩))), f3⟩⟩
          rintro rfl
          obtain ⟨t'', g1, g2⟩ := hi.cl p' pp tid a f1
          rw [htid] at g1; cases g1
          exact hpp (e2.symm.trans g2)
      heap := by
        intro p' pp h
        rcases get_set.1 h with ⟨rfl, _, rfl⟩ | ⟨_, h'⟩
        · exact ⟨⟨k, (pipeOk_cleanup hok' _)⟩, .inr (.inl ⟨k, hl⟩)⟩
        · obtain ⟨a, b⟩ := hi.heap p' pp h'
          refine ⟨a, ?_⟩
          rcases b with b | b | ⟨ti, tt, f1, f2, f3⟩
          · exact .inl b
          · exact .inr (.inl b)
          · refine .inr (.inr ⟨ti, tt, f1, get_snoc.2 (.inr (get_set.2 (.inr ⟨?_, f2⟩))), f3⟩)
            rintro rfl
            rw [htid] at f2; cases f2
            unfold Fired at f3
            rw [harm] at f3
            simp at f3
      tim := by
        intro i tt h
        rcases get_snoc.1 h with ⟨h1, rfl⟩ | h'
        · rw [List.length_set] at h1
          subst h1
          exact ⟨_, get_set.2 (.inl ⟨rfl, hplt, rfl⟩), (pipeOk_cleanup hok' _), fun _ => ⟨rfl, hinc'⟩, fun _ => ⟨hl, hc⟩,
            by rintro (h | h) <;> simp at h⟩
        · rcases get_set.1 h' with ⟨rfl, _, rfl⟩ | ⟨hne, h''⟩
          · refine ⟨{ fill pipe j ⟨s.calls, pdu⟩ with cleanup := some s.timers.length },
              get_set.2 (.inl ⟨e2.symm, hplt, rfl⟩), ?_, ?_, ?_, ?_⟩
            · rw [show ({ t with state := TimerState.stopped } : Timer).key = k from hkt]
              exact (pipeOk_cleanup hok' _)
            · intro h; exact absurd rfl h
            · intro h; cases h
            · rintro (h | h) <;> cases h
          · obtain ⟨pp, q1, q2, q3, q4, q5⟩ := hi.tim i tt h''
            by_cases hpp : p = tt.pipe
            · have hst : tt.state = .stopped := by
                apply Classical.byContradiction
                intro hst
                obtain ⟨r1, _⟩ := q3 hst
                rw [← hpp, hp] at q1; cases q1
                rw [hcl] at r1
                exact hne (Option.some.inj r1)
              refine ⟨{ fill pipe j ⟨s.calls, pdu⟩ with cleanup := some s.timers.length },
                get_set.2 (.inl ⟨hpp, hplt, rfl⟩), ?_, ?_, ?_, ?_⟩
              · rw [← hpp, hp] at q1; cases q1
                rw [pipeOk_key q2 hok]
                exact (pipeOk_cleanup hok' _)
              · intro h; exact absurd hst h
              · intro h; rw [hst] at h; cases h
              · rw [hst]; rintro (h | h) <;> cases h
            · exact ⟨pp, get_set.2 (.inr ⟨hpp, q1⟩), q2, q3, q4, q5⟩
      cl := by
        intro p' pp ti h h2
        rcases get_set.1 h with ⟨rfl, _, rfl⟩ | ⟨hne, h'⟩
        · cases h2
          exact ⟨_, get_snoc.2 (.inl ⟨by simp, rfl⟩), rfl⟩
        · obtain ⟨tt, a, b⟩ := hi.cl p' pp ti h' h2
          by_cases hti : tid = ti
          · subst hti
            rw [htid] at a; cases a
            exact absurd (e2.symm.trans b) hne
          · exact ⟨tt, get_snoc.2 (.inr (get_set.2 (.inr ⟨hti, a⟩))), b⟩
      notime := by intro h; cases h
      ids := hgrow.1
      uniq := hgrow.2 }

theorem inv_last {s : State} (hi : Inv s) {pdu : TPDU} {k : Bytes} {n j p : Nat} {pipe : Pipe} {timers : List Timer}
    (hseg : SegK k n j pdu) (hl : s.pipes.lookup k = some p) (hp : s.heap[p]? = some pipe)
    (hj : pipe.segments[j]? = some none) (hlen : pipe.segments.length = n) (hs : Stopped s pipe timers)
    (hn : pipe.frags + 1 = n) :
    Inv { s with calls := s.calls + 1, timers := timers, pipes := mapDelete s.pipes k,
                 heap := s.heap.set p (fill pipe j ⟨s.calls, pdu⟩) } := by
  obtain ⟨pipe', hp', hok, hinc, htf, htt⟩ := hi.cur k p hl
  rw [hp] at hp'; cases hp'
  have hplt := get_lt hp
  have hok' : PipeOk k (fill pipe j ⟨s.calls, pdu⟩) := pipeOk_fill hok.frags hok.seg hj hlen hseg
  have hfull : (fill pipe j ⟨s.calls, pdu⟩).frags = (fill pipe j ⟨s.calls, pdu⟩).segments.length := by
    show pipe.frags + 1 = (pipe.segments.set j _).length
    rw [List.length_set, hlen]; exact hn
  have hgrow := ids_grow hi _ p j (fill_grow (j0 := j) (pdu := pdu) (c := pipe.cleanup) hp)
  have hdel : ∀ (k' : Bytes) (p' : Nat), (mapDelete s.pipes k).lookup k' = some p' → s.pipes.lookup k' = some p' ∧ p ≠ p' := by
    intro k' p' h
    rw [lookup_delete] at h
    split at h
    · cases h
    · rename_i hkk
      refine ⟨h, ?_⟩
      rintro rfl
      exact hkk (hi.inj h hl)
  have hkeep : ∀ (k' : Bytes) (p' : Nat), p ≠ p' → s.pipes.lookup k' = some p' → (mapDelete s.pipes k).lookup k' = some p' := by
    intro k' p' hne h
    rw [lookup_delete, if_neg]
    · exact h
    · rintro rfl
      rw [hl] at h; cases h; exact hne rfl
  rcases hs with ⟨ht, hcl, rfl⟩ | ⟨tid, t, ht, hcl, htid, harm, rfl⟩
  · have hnt := hi.notime ht
    exact {
      cur := by
        intro k' p' hl'
        obtain ⟨hl'', hpp⟩ := hdel k' p' hl'
        obtain ⟨pp, a, b, c, d, e⟩ := hi.cur k' p' hl''
        exact ⟨pp, get_set.2 (.inr ⟨hpp, a⟩), b, c, d, e⟩
      heap := by
        intro p' pp h
        rcases get_set.1 h with ⟨rfl, _, rfl⟩ | ⟨hne, h'⟩
        · exact ⟨⟨k, hok'⟩, .inl hfull⟩
        · obtain ⟨a, b⟩ := hi.heap p' pp h'
          refine ⟨a, ?_⟩
          rcases b with b | ⟨k', b⟩ | b
          · exact .inl b
          · exact .inr (.inl ⟨k', hkeep k' p' hne b⟩)
          · exact .inr (.inr b)
      tim := by
        intro i t h
        have h : s.timers[i]? = some t := h
        rw [hnt] at h; simp at h
      cl := by
        intro p' pp tid h h2
        rcases get_set.1 h with ⟨rfl, _, rfl⟩ | ⟨_, h'⟩
        · have : pipe.cleanup = some tid := h2
          rw [hcl] at this; cases this
        · exact hi.cl p' pp tid h' h2
      notime := fun _ => hnt
      ids := hgrow.1
      uniq := hgrow.2 }
  · have hlt := get_lt htid
    obtain ⟨pt, hpt1, hpt2, hpt3, hpt4, hpt5⟩ := hi.tim tid t htid
    obtain ⟨t', e1, e2⟩ := hi.cl p pipe tid hp hcl
    rw [htid] at e1; cases e1
    have hkt : t.key = k := by
      rw [e2, hp] at hpt1; cases hpt1
      exact pipeOk_key hpt2 hok
    exact {
      cur := by
        intro k' p' hl'
        obtain ⟨hl'', hpp⟩ := hdel k' p' hl'
        obtain ⟨pp, a, b, c, d, e⟩ := hi.cur k' p' hl''
        obtain ⟨ti, tt, f1, f2, f3⟩ := e ht
        refine ⟨pp, get_set.2 (.inr ⟨hpp, a⟩), b, c, d,
          fun _ => ⟨ti, tt, f1, get_set.2 (.inr ⟨?_, f2⟩), f3⟩⟩
        rintro rfl
        obtain ⟨t'', g1, g2⟩ := hi.cl p' pp tid a f1
        rw [htid] at g1; cases g1
        exact hpp (e2.symm.trans g2)
      heap := by
        intro p' pp h
        rcases get_set.1 h with ⟨rfl, _, rfl⟩ | ⟨hne, h'⟩
        · exact ⟨⟨k, hok'⟩, .inl hfull⟩
        · obtain ⟨a, b⟩ := hi.heap p' pp h'
          refine ⟨a, ?_⟩
          rcases b with b | ⟨k', b⟩ | ⟨ti, tt, f1, f2, f3⟩
          · exact .inl b
          · exact .inr (.inl ⟨k', hkeep k' p' hne b⟩)
          · refine .inr (.inr ⟨ti, tt, f1, get_set.2 (.inr ⟨?_, f2⟩), f3⟩)
            rintro rfl
            rw [htid] at f2; cases f2
            unfold Fired at f3
            rw [harm] at f3
            simp at f3
      tim := by
        intro i tt h
        rcases get_set.1 h with ⟨rfl, _, rfl⟩ | ⟨hne, h''⟩
        · refine ⟨fill pipe j ⟨s.calls, pdu⟩, get_set.2 (.inl ⟨e2.symm, hplt, rfl⟩), ?_, ?_, ?_, ?_⟩
          · rw [show ({ t with state := TimerState.stopped } : Timer).key = k from hkt]
            exact hok'
          · intro h; exact absurd rfl h
          · intro h; cases h
          · rintro (h | h) <;> cases h
        · obtain ⟨pp, q1, q2, q3, q4, q5⟩ := hi.tim i tt h''
          by_cases hpp : p = tt.pipe
          · have hst : tt.state = .stopped := by
              apply Classical.byContradiction
              intro hst
              obtain ⟨r1, _⟩ := q3 hst
              rw [← hpp, hp] at q1; cases q1
              rw [hcl] at r1
              exact hne (Option.some.inj r1)
            refine ⟨fill pipe j ⟨s.calls, pdu⟩, get_set.2 (.inl ⟨hpp, hplt, rfl⟩), ?_, ?_, ?_, ?_⟩
            · rw [← hpp, hp] at q1; cases q1
              rw [pipeOk_key q2 hok]
              exact hok'
            · intro h; exact absurd hst h
            · intro h; rw [hst] at h; cases h
            · rw [hst]; rintro (h | h) <;> cases h
          · exact ⟨pp, get_set.2 (.inr ⟨hpp, q1⟩), q2, q3, fun h => ⟨hkeep _ _ hpp (q4 h).1, (q4 h).2⟩,
              fun h k' hk' => q5 h k' (hdel k' _ hk').1⟩
      cl := by
        intro p' pp ti h h2
        rcases get_set.1 h with ⟨rfl, _, rfl⟩ | ⟨hne, h'⟩
        · have h2 : pipe.cleanup = some ti := h2
          rw [hcl] at h2; cases h2
          exact ⟨_, get_set.2 (.inl ⟨rfl, hlt, rfl⟩), e2⟩
        · obtain ⟨tt, a, b⟩ := hi.cl p' pp ti h' h2
          by_cases hti : tid = ti
          · subst hti
            rw [htid] at a; cases a
            exact absurd (e2.symm.trans b) hne
          · exact ⟨tt, get_set.2 (.inr ⟨hti, a⟩), b⟩
      notime := by intro h; have h : s.timeout = false := h; rw [ht] at h; cases h
      ids := hgrow.1
      uniq := hgrow.2 }

theorem store_fresh (s : State) (k : Bytes) (n j : Nat) (ptr : Ptr) :
    store { s with
          calls := s.calls + 1
          pipes := mapSet s.pipes k s.heap.length
          heap := s.heap ++ [⟨none, List.replicate n none, 0⟩] } k s.heap.length
        (fill ⟨none, List.replicate n none, 0⟩ j ptr) =
    { s with
      calls := s.calls + 1
      pipes := mapSet s.pipes k s.heap.length
      heap := s.heap ++ [⟨if s.timeout then some s.timers.length else none, (List.replicate n none).set j (some ptr), 1⟩]
      timers := if s.timeout then s.timers ++ [⟨.armed, k, s.heap.length⟩] else s.timers } := by
  unfold store
  rcases Bool.eq_false_or_eq_true s.timeout with ht | ht
  · simp only [ht, if_true]
    rw [List.set_append_right _ _ (Nat.le_refl _)]
    simp [fill]
  · simp only [ht, Bool.false_eq_true, if_false]
    rw [List.set_append_right _ _ (Nat.le_refl _)]
    simp [fill]

theorem inv_fresh {s : State} (hi : Inv s) {pdu : TPDU} {k : Bytes} {n j : Nat} (hc : s.closed = false)
    (hseg : SegK k n j pdu)
    (hl : s.pipes.lookup k = none ∨ ∃ (p : Nat) (pipe : Pipe) (tid : Nat) (t : Timer), s.pipes.lookup k = some p ∧
      s.heap[p]? = some pipe ∧ pipe.segments[j]? = some none ∧ pipe.cleanup = some tid ∧ s.timers[tid]? = some t ∧
      t.state = .fired) :
    Inv (store { s with
          calls := s.calls + 1
          pipes := mapSet s.pipes k s.heap.length
          heap := s.heap ++ [⟨none, List.replicate n none, 0⟩] } k s.heap.length
        (fill ⟨none, List.replicate n none, 0⟩ j ⟨s.calls, pdu⟩)) := by
  rw [store_fresh]
  have hb : j < n ∧ 2 ≤ n := by
    obtain ⟨ref, h1, _⟩ := hseg
    have := h1.le; have := h1.multi
    omega
  generalize hcl : (if s.timeout then some s.timers.length else none) = cl
  have hok : PipeOk k ⟨cl, (List.replicate n none).set j (some ⟨s.calls, pdu⟩), 1⟩ := by
    have h := pipeOk_fill (k := k) (pipe := ⟨cl, List.replicate n none, 0⟩) (j := j) (n := n) (ptr := ⟨s.calls, pdu⟩)
      (by simp only; rw [List.countP_replicate]; simp) ?_ ?_ ?_ hseg
    · exact h
    · intro i q h
      have := List.mem_of_getElem? h
      simp at this
    · simp [hb.1]
    · simp
  have hinc : (1 : Nat) < ((List.replicate n none).set j (some (⟨s.calls, pdu⟩ : Ptr))).length := by simp; omega
  have hgrow := ids_grow hi (s.heap ++ [⟨cl, (List.replicate n none).set j (some ⟨s.calls, pdu⟩), 1⟩]) s.heap.length j (by
    intro p pipe i ptr h1 h2
    rcases get_snoc.1 h1 with ⟨rfl, rfl⟩ | h
    · rcases get_set.1 h2 with ⟨rfl, _, h3⟩ | ⟨_, h3⟩
      · cases h3; exact .inr ⟨rfl, rfl, rfl⟩
      · have := List.mem_of_getElem? h3
        simp at this
    · exact .inl ⟨pipe, h, h2⟩)
  have holdlt : ∀ {k' : Bytes} {p' : Nat}, s.pipes.lookup k' = some p' → p' < s.heap.length := by
    intro k' p' h
    obtain ⟨pp, a, _⟩ := hi.cur k' p' h
    exact get_lt a
  have htl : ∀ (i : Nat) (t : Timer), s.timers[i]? = some t →
      (if s.timeout then s.timers ++ [⟨.armed, k, s.heap.length⟩] else s.timers)[i]? = some t := by
    intro i t h
    split
    · exact get_snoc.2 (.inr h)
    · exact h
  have hinv : ∀ (k' : Bytes) (p' : Nat), (mapSet s.pipes k s.heap.length).lookup k' = some p' →
      (k' = k ∧ p' = s.heap.length) ∨ (k' ≠ k ∧ s.pipes.lookup k' = some p') := by
    intro k' p' h
    rw [lookup_set] at h
    split at h
    · rename_i e; cases h; exact .inl ⟨e, rfl⟩
    · rename_i e; exact .inr ⟨e, h⟩
  exact {
    cur := by
      intro k' p' hl'
      rcases hinv k' p' hl' with ⟨rfl, rfl⟩ | ⟨hkk, hl''⟩
      · refine ⟨_, get_snoc.2 (.inl ⟨rfl, rfl⟩), hok, hinc, ?_, ?_⟩
        · intro h; have h : s.timeout = false := h
          rw [← hcl, h]; rfl
        · intro h; have h : s.timeout = true := h
          refine ⟨s.timers.length, ⟨.armed, k', s.heap.length⟩, ?_, ?_, .inl rfl⟩
          · rw [← hcl, h]; rfl
          · simp [h]
      · obtain ⟨pp, a, b, c, d, e⟩ := hi.cur k' p' hl''
        refine ⟨pp, get_snoc.2 (.inr a), b, c, d, fun h => ?_⟩
        obtain ⟨ti, tt, f1, f2, f3⟩ := e h
        exact ⟨ti, tt, f1, htl _ _ f2, f3⟩
    heap := by
      intro p' pp h
      rcases get_snoc.1 h with ⟨rfl, rfl⟩ | h'
      · exact ⟨⟨k, hok⟩, .inr (.inl ⟨k, by rw [lookup_set, if_pos rfl]⟩)⟩
      · obtain ⟨a, b⟩ := hi.heap p' pp h'
        refine ⟨a, ?_⟩
        rcases b with b | ⟨k', b⟩ | ⟨ti, tt, f1, f2, f3⟩
        · exact .inl b
        · by_cases hkk : k' = k
          · subst hkk
            rcases hl with hl | ⟨p, pipe, tid, t, g1, g2, g3, g4, g5, g6⟩
            · rw [hl] at b; cases b
            · rw [b] at g1; cases g1
              rw [h'] at g2; cases g2
              exact .inr (.inr ⟨tid, t, g4, htl _ _ g5, .inl g6⟩)
          · exact .inr (.inl ⟨k', by rw [lookup_set, if_neg hkk]; exact b⟩)
        · exact .inr (.inr ⟨ti, tt, f1, htl _ _ f2, f3⟩)
    tim := by
      intro i tt h
      have hcase : (s.timeout = true ∧ i = s.timers.length ∧ tt = ⟨.armed, k, s.heap.length⟩) ∨ s.timers[i]? = some tt := by
        have h : (if s.timeout then s.timers ++ [⟨.armed, k, s.heap.length⟩] else s.timers)[i]? = some tt := h
        split at h
        · rename_i ht
          rcases get_snoc.1 h with ⟨a, b⟩ | h'
          · exact .inl ⟨ht, a, b⟩
          · exact .inr h'
        · exact .inr h
      rcases hcase with ⟨ht, rfl, rfl⟩ | h'
      · refine ⟨_, get_snoc.2 (.inl ⟨rfl, rfl⟩), hok, fun _ => ⟨?_, hinc⟩, fun _ => ⟨?_, hc⟩, ?_⟩
        · simp only; rw [← hcl, if_pos ht]
        · rw [lookup_set, if_pos rfl]
        · rintro (h | h) <;> cases h
      · obtain ⟨pp, q1, q2, q3, q4, q5⟩ := hi.tim i tt h'
        refine ⟨pp, get_snoc.2 (.inr q1), q2, q3, fun h => ⟨?_, hc⟩, ?_⟩
        · rw [lookup_set, if_neg]
          · exact (q4 h).1
          · intro hk
            have := (q4 h).1
            rw [hk] at this
            rcases hl with hl | ⟨p, pipe, tid, t, g1, g2, g3, g4, g5, g6⟩
            · rw [hl] at this; cases this
            · rw [g1] at this
              have hpt : p = tt.pipe := Option.some.inj this
              rw [← hpt, g2] at q1
              cases q1
              have := (q3 (by rw [h]; simp)).1
              rw [g4] at this
              have hti : tid = i := Option.some.inj this
              rw [hti, h'] at g5
              cases g5
              rw [h] at g6; cases g6
        · intro h k' hk'
          rcases hinv k' _ hk' with ⟨_, e⟩ | ⟨_, e⟩
          · have := get_lt q1; omega
          · exact q5 h k' e
    cl := by
      intro p' pp ti h h2
      rcases get_snoc.1 h with ⟨rfl, rfl⟩ | h'
      · have h2 : cl = some ti := h2
        rw [← hcl] at h2
        split at h2
        · rename_i ht
          cases h2
          exact ⟨⟨.armed, k, s.heap.length⟩, by simp [ht], rfl⟩
        · cases h2
      · obtain ⟨tt, a, b⟩ := hi.cl p' pp ti h' h2
        exact ⟨tt, htl _ _ a, b⟩
    notime := by
      intro h; have h : s.timeout = false := h
      show (if s.timeout then _ else s.timers) = []
      rw [h]
      exact hi.notime h
    ids := hgrow.1
    uniq := hgrow.2 }

theorem inv_collect {s s' : State} {o : Output} {pdu : TPDU} (hi : Inv s) (h : Outcome s pdu s' o) : Inv s' := by
  cases h with
  | closed => exact inv_calls hi
  | single => exact inv_calls hi
  | range => exact inv_calls hi
  | dup => exact inv_calls hi
  | join k n j p pipe timers hc hs hl hp hj hlen ht hn => exact inv_join hi hs hl hp hj hlen ht hn hc
  | last k n j p pipe timers hc hs hl hp hj hlen ht hn => exact inv_last hi hs hl hp hj hlen ht hn
  | fresh k n j hc hs hl => exact inv_fresh hi hc hs hl

/-! Timers. -/

/-- Replacing the state of timer `i`. -/
theorem inv_fire {s : State} (hi : Inv s) (i : Nat) : Inv (fire s i) := by
  unfold fire
  split
  · rename_i t ht
    split
    · rename_i ha
      have hlt := get_lt ht
      obtain ⟨pt, a1, a2, a3, a4, a5⟩ := hi.tim i t ht
      exact {
        cur := by
          intro k p hl
          obtain ⟨pp, a, b, c, d, e⟩ := hi.cur k p hl
          refine ⟨pp, a, b, c, d, fun h => ?_⟩
          obtain ⟨ti, tt, f1, f2, f3⟩ := e h
          by_cases hti : i = ti
          · exact ⟨ti, _, f1, get_set.2 (.inl ⟨hti, hlt, rfl⟩), .inr (.inl rfl)⟩
          · exact ⟨ti, tt, f1, get_set.2 (.inr ⟨hti, f2⟩), f3⟩
        heap := by
          intro p pp h
          obtain ⟨a, b⟩ := hi.heap p pp h
          refine ⟨a, ?_⟩
          rcases b with b | b | ⟨ti, tt, f1, f2, f3⟩
          · exact .inl b
          · exact .inr (.inl b)
          · by_cases hti : i = ti
            · exact .inr (.inr ⟨ti, _, f1, get_set.2 (.inl ⟨hti, hlt, rfl⟩), .inl rfl⟩)
            · exact .inr (.inr ⟨ti, tt, f1, get_set.2 (.inr ⟨hti, f2⟩), f3⟩)
        tim := by
          intro i' tt h
          rcases get_set.1 h with ⟨rfl, _, rfl⟩ | ⟨hne, h'⟩
          · refine ⟨pt, a1, a2, fun _ => a3 (by rw [ha]; simp), ?_, ?_⟩
            · intro h; cases h
            · rintro (h | h) <;> cases h
          · exact hi.tim i' tt h'
        cl := by
          intro p pp ti h h2
          obtain ⟨tt, a, b⟩ := hi.cl p pp ti h h2
          by_cases hti : i = ti
          · subst hti
            rw [ht] at a; cases a
            exact ⟨_, get_set.2 (.inl ⟨rfl, hlt, rfl⟩), b⟩
          · exact ⟨tt, get_set.2 (.inr ⟨hti, a⟩), b⟩
        notime := by
          intro h
          have := hi.notime h
          rw [this] at hlt; simp at hlt
        ids := hi.ids
        uniq := hi.uniq }
    · exact hi
  · exact hi

theorem inv_expire {s : State} (hi : Inv s) (i : Nat) : Inv (expire s i) := by
  unfold expire
  split
  · rename_i t ht
    split
    · rename_i ha
      have hlt := get_lt ht
      obtain ⟨pt, a1, a2, a3, a4, a5⟩ := hi.tim i t ht
      have hcl := (a3 (by rw [ha]; simp)).1
      generalize hm : (if s.pipes.lookup t.key = some t.pipe then mapDelete s.pipes t.key else s.pipes) = m
      -- the map afterwards: the pipe of the timer is gone, nothing else
      have h1 : ∀ (k' : Bytes) (p' : Nat), m.lookup k' = some p' → s.pipes.lookup k' = some p' ∧ p' ≠ t.pipe := by
        intro k' p' h
        rw [← hm] at h
        split at h
        · rename_i hl
          rw [lookup_delete] at h
          split at h
          · cases h
          · rename_i hkk
            refine ⟨h, ?_⟩
            rintro rfl
            exact hkk (hi.inj h hl)
        · rename_i hl
          refine ⟨h, ?_⟩
          rintro rfl
          obtain ⟨pp, b1, b2, _⟩ := hi.cur k' t.pipe h
          rw [a1] at b1; cases b1
          rw [pipeOk_key b2 a2] at h
          exact hl h
      have h2 : ∀ (k' : Bytes) (p' : Nat), s.pipes.lookup k' = some p' → p' ≠ t.pipe → m.lookup k' = some p' := by
        intro k' p' h hne
        rw [← hm]
        split
        · rename_i hl
          rw [lookup_delete, if_neg]
          · exact h
          · rintro rfl
            rw [hl] at h; cases h; exact hne rfl
        · exact h
      exact {
        cur := by
          intro k p hl
          obtain ⟨hl', hne⟩ := h1 k p hl
          obtain ⟨pp, a, b, c, d, e⟩ := hi.cur k p hl'
          refine ⟨pp, a, b, c, d, fun h => ?_⟩
          obtain ⟨ti, tt, f1, f2, f3⟩ := e h
          by_cases hti : i = ti
          · subst hti
            obtain ⟨t'', g1, g2⟩ := hi.cl p pp i a f1
            rw [ht] at g1; cases g1
            exact absurd g2.symm hne
          · exact ⟨ti, tt, f1, get_set.2 (.inr ⟨hti, f2⟩), f3⟩
        heap := by
          intro p pp h
          obtain ⟨a, b⟩ := hi.heap p pp h
          refine ⟨a, ?_⟩
          by_cases hpp : p = t.pipe
          · subst hpp
            rw [a1] at h; cases h
            exact .inr (.inr ⟨i, _, hcl, get_set.2 (.inl ⟨rfl, hlt, rfl⟩), .inr (.inl rfl)⟩)
          · rcases b with b | ⟨k', b⟩ | ⟨ti, tt, f1, f2, f3⟩
            · exact .inl b
            · exact .inr (.inl ⟨k', h2 k' p b hpp⟩)
            · by_cases hti : i = ti
              · exact .inr (.inr ⟨ti, _, f1, get_set.2 (.inl ⟨hti, hlt, rfl⟩), .inr (.inl rfl)⟩)
              · exact .inr (.inr ⟨ti, tt, f1, get_set.2 (.inr ⟨hti, f2⟩), f3⟩)
        tim := by
          intro i' tt h
          rcases get_set.1 h with ⟨rfl, _, rfl⟩ | ⟨hne, h'⟩
          · refine ⟨pt, a1, a2, fun _ => a3 (by rw [ha]; simp), ?_, ?_⟩
            · intro h; cases h
            · intro _ k' hk'
              exact (h1 k' _ hk').2 rfl
          · obtain ⟨pp, q1, q2, q3, q4, q5⟩ := hi.tim i' tt h'
            refine ⟨pp, q1, q2, q3, fun h => ⟨?_, (q4 h).2⟩, fun h k' hk' => q5 h k' (h1 k' _ hk').1⟩
            refine h2 _ _ (q4 h).1 ?_
            intro e
            rw [e, a1] at q1; cases q1
            have := (q3 (by rw [h]; simp)).1
            rw [hcl] at this
            exact hne (Option.some.inj this)
        cl := by
          intro p pp ti h h2
          obtain ⟨tt, a, b⟩ := hi.cl p pp ti h h2
          by_cases hti : i = ti
          · subst hti
            rw [ht] at a; cases a
            exact ⟨_, get_set.2 (.inl ⟨rfl, hlt, rfl⟩), b⟩
          · exact ⟨tt, get_set.2 (.inr ⟨hti, a⟩), b⟩
        notime := by
          intro h
          have := hi.notime h
          rw [this] at hlt; simp at hlt
        ids := hi.ids
        uniq := hi.uniq }
    · exact hi
  · exact hi

theorem inv_handle {s : State} (hi : Inv s) (i : Nat) : Inv (handle s i).1 := by
  unfold handle
  split
  · rename_i t ht
    split
    · rename_i ha
      have hlt := get_lt ht
      obtain ⟨pt, a1, a2, a3, a4, a5⟩ := hi.tim i t ht
      exact {
        cur := by
          intro k p hl
          obtain ⟨pp, a, b, c, d, e⟩ := hi.cur k p hl
          refine ⟨pp, a, b, c, d, fun h => ?_⟩
          obtain ⟨ti, tt, f1, f2, f3⟩ := e h
          by_cases hti : i = ti
          · subst hti
            rw [ht] at f2; cases f2
            rw [ha] at f3
            simp at f3
          · exact ⟨ti, tt, f1, get_set.2 (.inr ⟨hti, f2⟩), f3⟩
        heap := by
          intro p pp h
          obtain ⟨a, b⟩ := hi.heap p pp h
          refine ⟨a, ?_⟩
          rcases b with b | b | ⟨ti, tt, f1, f2, f3⟩
          · exact .inl b
          · exact .inr (.inl b)
          · by_cases hti : i = ti
            · exact .inr (.inr ⟨ti, _, f1, get_set.2 (.inl ⟨hti, hlt, rfl⟩), .inr (.inr rfl)⟩)
            · exact .inr (.inr ⟨ti, tt, f1, get_set.2 (.inr ⟨hti, f2⟩), f3⟩)
        tim := by
          intro i' tt h
          rcases get_set.1 h with ⟨rfl, _, rfl⟩ | ⟨hne, h'⟩
          · refine ⟨pt, a1, a2, fun _ => a3 (by rw [ha]; simp), ?_, fun _ => a5 (.inl ha)⟩
            · intro h; cases h
          · exact hi.tim i' tt h'
        cl := by
          intro p pp ti h h2
          obtain ⟨tt, a, b⟩ := hi.cl p pp ti h h2
          by_cases hti : i = ti
          · subst hti
            rw [ht] at a; cases a
            exact ⟨_, get_set.2 (.inl ⟨rfl, hlt, rfl⟩), b⟩
          · exact ⟨tt, get_set.2 (.inr ⟨hti, a⟩), b⟩
        notime := by
          intro h
          have := hi.notime h
          rw [this] at hlt; simp at hlt
        ids := hi.ids
        uniq := hi.uniq }
    · exact hi
  · exact hi

/-! Close. -/

theorem stopTimer_get (timers : List Timer) (tid i : Nat) (t : Timer) :
    (stopTimer timers tid).2[i]? = some t ↔ ∃ t0, timers[i]? = some t0 ∧
      t = if i = tid ∧ t0.state = .armed then { t0 with state := .stopped } else t0 := by
  unfold stopTimer
  cases h : timers[tid]? with
  | none =>
    simp only
    constructor
    · intro ht
      refine ⟨t, ht, ?_⟩
      rw [if_neg]
      rintro ⟨rfl, _⟩
      rw [h] at ht; cases ht
    · rintro ⟨t0, ht0, rfl⟩
      rw [if_neg]
      · exact ht0
      · rintro ⟨rfl, _⟩
        rw [h] at ht0; cases ht0
  | some u =>
    simp only
    by_cases hu : u.state = .armed
    · rw [if_pos hu]
      simp only
      rw [get_set]
      constructor
      · rintro (⟨rfl, _, rfl⟩ | ⟨hne, ht⟩)
        · exact ⟨u, h, by rw [if_pos ⟨rfl, hu⟩]⟩
        · exact ⟨t, ht, by rw [if_neg]; rintro ⟨rfl, _⟩; exact hne rfl⟩
      · rintro ⟨t0, ht0, rfl⟩
        by_cases he : i = tid
        · subst he
          rw [h] at ht0; cases ht0
          rw [if_pos ⟨rfl, hu⟩]
          exact .inl ⟨rfl, get_lt h, rfl⟩
        · rw [if_neg (fun h => he h.1)]
          exact .inr ⟨fun e => he e.symm, ht0⟩
    · rw [if_neg hu]
      simp only
      constructor
      · intro ht
        refine ⟨t, ht, ?_⟩
        rw [if_neg]
        rintro ⟨rfl, ha⟩
        rw [h] at ht; cases ht; exact hu ha
      · rintro ⟨t0, ht0, rfl⟩
        rw [if_neg]
        · exact ht0
        · rintro ⟨rfl, ha⟩
          rw [h] at ht0; cases ht0; exact hu ha

/-- `stopAll` stops some armed timers and changes nothing else. -/
theorem stopAll_get (heap : List Pipe) (m : List (Bytes × Nat)) : ∀ (timers : List Timer) (i : Nat) (t0 : Timer),
    timers[i]? = some t0 → ∃ t, (stopAll heap m timers)[i]? = some t ∧
      (t = t0 ∨ (t0.state = .armed ∧ t = { t0 with state := .stopped })) ∧
      (∀ k p pipe, (k, p) ∈ m → heap[p]? = some pipe → pipe.cleanup = some i → t.state ≠ .armed) := by
  induction m with
  | nil =>
    intro timers i t0 h
    exact ⟨t0, h, .inl rfl, by intro k p pipe h; cases h⟩
  | cons e m ih =>
    obtain ⟨k0, p0⟩ := e
    intro timers i t0 h
    unfold stopAll
    cases hp : heap[p0]? with
    | none =>
      simp only
      obtain ⟨t, h1, h2, h3⟩ := ih timers i t0 h
      refine ⟨t, h1, h2, ?_⟩
      intro k p pipe hm hh hc
      rcases List.mem_cons.1 hm with e | hm
      · cases e; rw [hp] at hh; cases hh
      · exact h3 k p pipe hm hh hc
    | some pp =>
      simp only
      cases hcl : pp.cleanup with
      | none =>
        simp only
        obtain ⟨t, h1, h2, h3⟩ := ih timers i t0 h
        refine ⟨t, h1, h2, ?_⟩
        intro k p pipe hm hh hc
        rcases List.mem_cons.1 hm with e | hm
        · cases e; rw [hp] at hh; cases hh; rw [hcl] at hc; cases hc
        · exact h3 k p pipe hm hh hc
      | some tid =>
        simp only
        have hst := (stopTimer_get timers tid i _).2 ⟨t0, h, rfl⟩
        obtain ⟨t, h1, h2, h3⟩ := ih _ i _ hst
        by_cases hc : i = tid ∧ t0.state = .armed
        · rw [if_pos hc] at h2
          have : t = { t0 with state := .stopped } := by
            rcases h2 with h2 | ⟨h2, _⟩
            · exact h2
            · cases h2
          refine ⟨t, h1, .inr ⟨hc.2, this⟩, ?_⟩
          intro k p pipe _ _ _
          rw [this]; simp
        · rw [if_neg hc] at h2
          refine ⟨t, h1, h2, ?_⟩
          intro k p pipe hm hh hcc
          rcases List.mem_cons.1 hm with e | hm
          · cases e
            rw [hp] at hh; cases hh
            rw [hcl] at hcc
            cases hcc
            rcases h2 with rfl | ⟨h2, rfl⟩
            · intro ha; exact hc ⟨rfl, ha⟩
            · simp
          · exact h3 k p pipe hm hh hcc

theorem stopAll_length (heap : List Pipe) (m : List (Bytes × Nat)) : ∀ timers : List Timer,
    (stopAll heap m timers).length = timers.length := by
  induction m with
  | nil => intro timers; rfl
  | cons e m ih =>
    obtain ⟨k0, p0⟩ := e
    intro timers
    unfold stopAll
    split
    · split
      · rw [ih]
        unfold stopTimer
        split
        · split
          · simp
          · rfl
        · rfl
      · exact ih timers
    · exact ih timers

theorem lookup_mem {m : List (Bytes × Nat)} {k : Bytes} {p : Nat} (h : m.lookup k = some p) : (k, p) ∈ m := by
  induction m with
  | nil => simp at h
  | cons e m ih =>
    obtain ⟨a, v⟩ := e
    rw [List.lookup_cons] at h
    split at h
    · rename_i ha
      cases h
      have : k = a := by simpa using ha
      subst this
      exact List.mem_cons_self
    · exact List.mem_cons_of_mem _ (ih h)

/-- Closing: every armed timer is stopped, all others are unchanged. -/
theorem close_timers {s : State} (hi : Inv s) (hc : s.closed = false) (i : Nat) :
    (Close s).timers[i]? = (s.timers[i]?).map (fun t => if t.state = .armed then { t with state := .stopped } else t) := by
  unfold Close
  rw [hc]
  simp only [Bool.false_eq_true, if_false]
  cases h : s.timers[i]? with
  | none =>
    simp only [Option.map_none]
    rw [List.getElem?_eq_none_iff, stopAll_length]
    exact List.getElem?_eq_none_iff.1 h
  | some t0 =>
    obtain ⟨t, h1, h2, h3⟩ := stopAll_get s.heap s.pipes s.timers i t0 h
    rw [h1]
    simp only [Option.map_some, Option.some.injEq]
    by_cases ha : t0.state = .armed
    · rw [if_pos ha]
      obtain ⟨pp, q1, q2, q3, q4, q5⟩ := hi.tim i t0 h
      have := h3 t0.key t0.pipe pp (lookup_mem (q4 ha).1) q1 (q3 (by rw [ha]; simp)).1
      rcases h2 with rfl | ⟨_, h2⟩
      · exact absurd ha this
      · exact h2
    · rw [if_neg ha]
      rcases h2 with h2 | ⟨h2, _⟩
      · exact h2
      · exact absurd h2 ha

theorem inv_close {s : State} (hi : Inv s) : Inv (Close s) := by
  rcases Bool.eq_false_or_eq_true s.closed with hc | hc
  · unfold Close; rw [if_pos hc]; exact hi
  · have ht := close_timers hi hc
    have e1 : (Close s).pipes = s.pipes := by unfold Close; split <;> rfl
    have e2 : (Close s).heap = s.heap := by unfold Close; split <;> rfl
    have e3 : (Close s).timeout = s.timeout := by unfold Close; split <;> rfl
    have e4 : (Close s).calls = s.calls := by unfold Close; split <;> rfl
    have e5 : (Close s).closed = true := by
      unfold Close; rw [hc]; rfl
    have fwd : ∀ (i : Nat) (t : Timer), s.timers[i]? = some t →
        (Close s).timers[i]? = some (if t.state = .armed then { t with state := .stopped } else t) := by
      intro i t h; rw [ht, h]; rfl
    exact {
      cur := by
        intro k p hl
        rw [e1] at hl
        obtain ⟨pp, a, b, c, d, e⟩ := hi.cur k p hl
        refine ⟨pp, by rw [e2]; exact a, b, c, by rw [e3]; exact d, fun h => ?_⟩
        rw [e3] at h
        obtain ⟨ti, tt, f1, f2, f3⟩ := e h
        refine ⟨ti, _, f1, fwd _ _ f2, ?_⟩
        rcases f3 with f3 | f3 | ⟨_, f3⟩
        · rw [if_pos f3]; exact .inr (.inr ⟨rfl, e5⟩)
        · rw [if_neg (by rw [f3]; simp)]; exact .inr (.inl f3)
        · rw [hc] at f3; cases f3
      heap := by
        intro p pp h
        rw [e2] at h
        obtain ⟨a, b⟩ := hi.heap p pp h
        refine ⟨a, ?_⟩
        rcases b with b | b | ⟨ti, tt, f1, f2, f3⟩
        · exact .inl b
        · exact .inr (.inl (by rw [e1]; exact b))
        · refine .inr (.inr ⟨ti, tt, f1, ?_, f3⟩)
          rw [fwd _ _ f2, if_neg]
          intro ha
          unfold Fired at f3
          rw [ha] at f3
          simp at f3
      tim := by
        intro i t h
        rw [ht] at h
        cases h0 : s.timers[i]? with
        | none => rw [h0] at h; cases h
        | some t0 =>
          rw [h0] at h
          obtain ⟨pp, q1, q2, q3, q4, q5⟩ := hi.tim i t0 h0
          have he : t = if t0.state = .armed then { t0 with state := .stopped } else t0 := (Option.some.inj h).symm
          by_cases ha : t0.state = .armed
          · rw [if_pos ha] at he
            subst he
            refine ⟨pp, by rw [e2]; exact q1, q2, fun h => absurd rfl h, ?_, ?_⟩
            · intro h; cases h
            · rintro (h | h) <;> cases h
          · rw [if_neg ha] at he
            subst he
            exact ⟨pp, by rw [e2]; exact q1, q2, q3, fun h => absurd h ha, by rw [e1]; exact q5⟩
      cl := by
        intro p pp ti h h2
        rw [e2] at h
        obtain ⟨tt, a, b⟩ := hi.cl p pp ti h h2
        refine ⟨_, fwd _ _ a, ?_⟩
        split
        · exact b
        · exact b
      notime := by
        intro h
        rw [e3] at h
        have hn := hi.notime h
        have := hi.notime h
        unfold Close
        rw [if_neg (by rw [hc]; simp)]
        simp only
        rw [← List.length_eq_zero_iff, stopAll_length, hn]
        rfl
      ids := by rw [e2, e4]; exact hi.ids
      uniq := by rw [e2]; exact hi.uniq }

end Verif.Proofs.Coll
