import Verif.Proofs.AliasCalls

/-! When concurrent calls that append to a slice they share get in each other's way. -/

namespace Verif.Proofs.Alias
open Verif.Model Verif.Model.Alias Verif.Spec Verif.Proofs

/-- Calls on an encoder with options `e`: those with a slice of the array of `e` have a slice from its start, the
others an array of their own. -/
structure SharedInv (e : Slice) (base : List CharsetOpt) (ls : List (List CharsetOpt)) (m : Mem CharsetOpt)
    (cs : List Call) : Prop where
  len : cs.length = ls.length
  alloc : ∀ (i : Nat) c, cs[i]? = some c → Allocated m c.eopts
  prog : ∀ (i : Nat) c l, cs[i]? = some c → ls[i]? = some l → Progress m base l c
  place : ∀ (i : Nat) c, cs[i]? = some c → c.eopts.arr = e.arr → c.eopts.off = e.off ∧ c.eopts.cap = e.cap
  own : ∀ (i j : Nat) c d, i ≠ j → cs[i]? = some c → cs[j]? = some d → c.eopts.arr = d.eopts.arr → c.eopts.arr = e.arr

/-- The options of no two calls differ at a position for which there is unused capacity. -/
def Agree (e : Slice) (ls : List (List CharsetOpt)) : Prop :=
  ∀ (i j : Nat) l l' q x y, i ≠ j → ls[i]? = some l → ls[j]? = some l' → e.len + q < e.cap → l[q]? = some x →
    l'[q]? = some y → x = y

theorem shared_step (grow : Nat → Nat) (e : Slice) (base : List CharsetOpt) (ls : List (List CharsetOpt))
    (m m' : Mem CharsetOpt) (cs : List Call) (i : Nat) (c c' : Call) (he : e.arr < m.next) (hb : base.length = e.len)
    (hA : Agree e ls) (hI : SharedInv e base ls m cs) (hc : cs[i]? = some c) (h : c.step grow m = (m', c')) :
    SharedInv e base ls m' (cs.set i c') ∧ e.arr < m'.next := by
  unfold Call.step at h
  have hl : ∃ l, ls[i]? = some l := by
    have := (List.getElem?_eq_some_iff.1 hc).1
    exact ⟨_, List.getElem?_eq_getElem (by rw [← hI.len]; exact this)⟩
  obtain ⟨l, hl⟩ := hl
  obtain ⟨done, rest, p1, p2, p3⟩ := hI.prog i c l hc hl
  have ha := hI.alloc i c hc
  have hlen : c.eopts.len = e.len + done.length := by
    have := congrArg List.length p2
    rw [read_length, List.length_append, hb] at this
    exact this
  split at h
  · -- nothing to do
    rename_i ht
    cases h
    have : cs.set i c = cs := by
      apply List.ext_getElem?
      intro j
      rw [List.getElem?_set]
      split
      · subst_vars
        rw [if_pos (List.getElem?_eq_some_iff.1 hc).1, hc]
      · rfl
    rw [this]
    exact ⟨hI, he⟩
  · -- an option is appended
    rename_i o t ht
    obtain ⟨m1, u, hu⟩ : ∃ m1 u, m.append grow c.eopts [o] = (m1, u) := ⟨_, _, rfl⟩
    rw [hu] at h
    cases h
    obtain ⟨g1, g2, g3, g4, g5, g6⟩ := append_spec grow m _ _ ha hu
    simp only [List.length_singleton] at g5 g6
    have ho : l[done.length]? = some o := by
      rcases p3 with ⟨q1, q2⟩ | ⟨_, q1, _⟩
      · rw [ht] at q1
        cases rest with
        | nil => simp at q1
        | cons r rest =>
          simp only [List.map_cons, List.cons_append, List.cons.injEq, OptStep.apply.injEq] at q1
          rw [p1, q1.1]
          simp
      · rw [ht] at q1; cases q1
    have hread : ∀ (j : Nat) d, i ≠ j → cs[j]? = some d → m'.read d.eopts = m.read d.eopts := by
      intro j d hij hd
      apply read_congr
      intro a p hud
      have hda := hI.alloc j d hd
      by_cases hs : Spare c.eopts a p
      · have hsame : c.eopts.arr = d.eopts.arr := by rw [← hs.1, ← hud.1]
        have harr := hI.own i j c d hij hc hd hsame
        obtain ⟨c1, c2⟩ := hI.place i c hc harr
        obtain ⟨d1, d2⟩ := hI.place j d hd (by rw [← hsame]; exact harr)
        unfold Mem.append at hu
        simp only [List.length_singleton] at hu
        split at hu
        · rename_i hcap
          cases hu
          by_cases hp : p = c.eopts.off + c.eopts.len
          · obtain ⟨l', hl'⟩ : ∃ l', ls[j]? = some l' := by
              have := (List.getElem?_eq_some_iff.1 hd).1
              exact ⟨_, List.getElem?_eq_getElem (by rw [← hI.len]; exact this)⟩
            obtain ⟨dn, rs, r1, r2, _⟩ := hI.prog j d l' hd hl'
            have hq : c.eopts.len < d.eopts.len := by unfold Used at hud; omega
            have hv : (m.read d.eopts)[c.eopts.len]? = some (m.get a p) := by
              rw [read_get, if_pos hq, hud.1, d1, ← c1, ← hp]
            rw [r2, List.getElem?_append_right (by omega), hb, hlen, show e.len + done.length - e.len = done.length by omega] at hv
            have hv' : l'[done.length]? = some (m.get a p) := by
              rw [r1, List.getElem?_append_left (List.getElem?_eq_some_iff.1 hv).1]
              exact hv
            have hw := write_get_in m c.eopts.arr (c.eopts.off + c.eopts.len) [o] 0 o rfl
            rw [hs.1, hp]
            rw [hs.1, hp] at hv'
            exact hw.trans (hA i j l l' _ _ _ hij hl hl' (by omega) ho hv')
          · apply write_get
            simp only [List.length_singleton]
            omega
        · cases hu
          apply write_get
          have := hda.1
          have := hud.1
          omega
      · apply g2 a p _ hs
        have := hda.1
        have := hud.1
        omega
    refine ⟨⟨by rw [List.length_set]; exact hI.len, ?_, ?_, ?_, ?_⟩, by omega⟩
    · intro j d hd
      rcases set_get _ _ _ _ _ hd with ⟨_, rfl⟩ | ⟨_, hd⟩
      · exact g4
      · have := hI.alloc j d hd
        exact ⟨Nat.lt_of_lt_of_le this.1 g3, this.2⟩
    · intro j d l' hd hl'
      rcases set_get _ _ _ _ _ hd with ⟨rfl, rfl⟩ | ⟨hij, hd⟩
      · rw [hl] at hl'
        cases hl'
        rcases p3 with ⟨q1, q2⟩ | ⟨_, q1, _⟩
        · rw [ht] at q1
          cases rest with
          | nil => simp at q1
          | cons r rest =>
            simp only [List.map_cons, List.cons_append, List.cons.injEq, OptStep.apply.injEq] at q1
            obtain ⟨rfl, q1⟩ := q1
            exact ⟨done ++ [o], rest, by simp [p1], by simp only; rw [g1, p2, List.append_assoc], .inl ⟨q1, q2⟩⟩
        · rw [ht] at q1; cases q1
      · obtain ⟨dn, rs, r1, r2, r3⟩ := hI.prog j d l' hd hl'
        exact ⟨dn, rs, r1, by rw [hread j d hij hd]; exact r2, r3⟩
    · intro j d hd harr
      rcases set_get _ _ _ _ _ hd with ⟨rfl, rfl⟩ | ⟨hij, hd⟩
      · simp only at harr ⊢
        rcases g6 with ⟨a1, a2, a3, _⟩ | ⟨a1, _⟩
        · rw [a2, a3]
          exact hI.place i c hc (by rw [← a1]; exact harr)
        · omega
      · exact hI.place j d hd harr
    · intro j k d f hjk hd hf hdf
      rcases set_get _ _ _ _ _ hd with ⟨rfl, rfl⟩ | ⟨hij, hd⟩
      · rcases set_get _ _ _ _ _ hf with ⟨hh, _⟩ | ⟨_, hf⟩
        · exact absurd hh hjk
        · have hfa := (hI.alloc k f hf).1
          simp only at hdf ⊢
          rcases g6 with ⟨a1, _⟩ | ⟨a1, _⟩
          · rw [a1] at hdf ⊢
            exact hI.own i k c f hjk hc hf hdf
          · omega
      · rcases set_get _ _ _ _ _ hf with ⟨rfl, rfl⟩ | ⟨_, hf⟩
        · have hda := (hI.alloc j d hd).1
          simp only at hdf ⊢
          rcases g6 with ⟨a1, _⟩ | ⟨a1, _⟩
          · rw [a1] at hdf
            exact hI.own j i d c hjk hd hc hdf
          · omega
        · exact hI.own j k d f hjk hd hf hdf
  · -- the options are read
    rename_i t ht
    cases h
    refine ⟨⟨by rw [List.length_set]; exact hI.len, ?_, ?_, ?_, ?_⟩, he⟩
    · intro j d hd
      rcases set_get _ _ _ _ _ hd with ⟨_, rfl⟩ | ⟨_, hd⟩
      · exact ha
      · exact hI.alloc j d hd
    · intro j d l' hd hl'
      rcases set_get _ _ _ _ _ hd with ⟨rfl, rfl⟩ | ⟨hij, hd⟩
      · rw [hl] at hl'
        cases hl'
        rcases p3 with ⟨q1, q2⟩ | ⟨_, q1, _⟩
        · rw [ht] at q1
          cases rest with
          | cons r rest => simp at q1
          | nil =>
            simp only [List.map_nil, List.nil_append, List.cons.injEq, true_and] at q1
            exact ⟨done, [], p1, p2, .inr ⟨rfl, q1, by simp only; rw [p2, p1, List.append_nil]⟩⟩
        · rw [ht] at q1; cases q1
      · exact hI.prog j d l' hd hl'
    · intro j d hd harr
      rcases set_get _ _ _ _ _ hd with ⟨rfl, rfl⟩ | ⟨_, hd⟩
      · exact hI.place i c hc harr
      · exact hI.place j d hd harr
    · intro j k d f hjk hd hf hdf
      rcases set_get _ _ _ _ _ hd with ⟨rfl, rfl⟩ | ⟨hij, hd⟩
      · rcases set_get _ _ _ _ _ hf with ⟨hh, _⟩ | ⟨_, hf⟩
        · exact absurd hh hjk
        · exact hI.own i k c f hjk hc hf hdf
      · rcases set_get _ _ _ _ _ hf with ⟨rfl, rfl⟩ | ⟨_, hf⟩
        · exact hI.own j i d c hjk hd hc hdf
        · exact hI.own j k d f hjk hd hf hdf

theorem shared_run (grow : Nat → Nat) (e : Slice) (base : List CharsetOpt) (ls : List (List CharsetOpt))
    (hb : base.length = e.len) (hA : Agree e ls) : ∀ (sched : List Nat)
    (m : Mem CharsetOpt) (cs : List Call), e.arr < m.next → SharedInv e base ls m cs →
    SharedInv e base ls (runCalls grow sched m cs).1 (runCalls grow sched m cs).2
  | [], m, cs, _, h => h
  | i :: is, m, cs, he, h => by
    unfold runCalls
    split
    · exact shared_run grow e base ls hb hA is m cs he h
    · rename_i c hc
      obtain ⟨h1, h2⟩ := shared_step grow e base ls m _ cs i c _ he hb hA h hc rfl
      exact shared_run grow e base ls hb hA is _ _ h2 h1

theorem shared_new (m : Mem CharsetOpt) (e : Slice) (ls : List (List CharsetOpt)) (ha : Allocated m e) :
    SharedInv e (m.read e) ls m (ls.map (Call.new e)) := by
  have hn : ∀ (i : Nat) c, (ls.map (Call.new e))[i]? = some c → c.eopts = e := by
    intro i c hc
    rw [List.getElem?_map] at hc
    obtain ⟨x, _, rfl⟩ := Option.map_eq_some_iff.1 hc
    rfl
  refine ⟨by simp, ?_, ?_, ?_, ?_⟩
  · intro i c hc; rw [hn i c hc]; exact ha
  · intro j d l' hd hl'
    rw [List.getElem?_map, hl'] at hd
    cases hd
    exact ⟨[], l', rfl, by rw [List.append_nil]; rfl, .inl ⟨rfl, rfl⟩⟩
  · intro i c hc _; rw [hn i c hc]; exact ⟨rfl, rfl⟩
  · intro i j c d _ hc _ _; rw [hn i c hc]

/-! ### A schedule in which one call reads an option of another -/

theorem run_append (grow : Nat → Nat) : ∀ (s t : List Nat) (m : Mem CharsetOpt) (cs : List Call),
    runCalls grow (s ++ t) m cs = runCalls grow t (runCalls grow s m cs).1 (runCalls grow s m cs).2
  | [], _, _, _ => rfl
  | i :: s, t, m, cs => by
    rw [List.cons_append]
    simp only [runCalls]
    split
    · exact run_append grow s t m cs
    · exact run_append grow s t _ _

/-- A call that appends options within the capacity. -/
theorem run_in_place (grow : Nat → Nat) (i : Nat) (e : Slice) : ∀ (xs : List CharsetOpt) (todo : List OptStep) (n : Nat)
    (m : Mem CharsetOpt) (cs : List Call) (seen : Option (List CharsetOpt)),
    cs[i]? = some ⟨xs.map .apply ++ todo, { e with len := n }, seen⟩ → n + xs.length ≤ e.cap →
    runCalls grow (List.replicate xs.length i) m cs =
      ((m.write e.arr (e.off + n) xs), cs.set i ⟨todo, { e with len := n + xs.length }, seen⟩)
  | [], todo, n, m, cs, seen, hc, _ => by
    have h1 : cs.set i ⟨todo, { e with len := n }, seen⟩ = cs := by
      apply List.ext_getElem?
      intro j
      rw [List.getElem?_set]
      split
      · subst_vars
        rw [if_pos (List.getElem?_eq_some_iff.1 hc).1, hc]
        rfl
      · rfl
    have h2 : m.write e.arr (e.off + n) [] = m := by
      unfold Mem.write
      cases m with
      | mk nx g =>
        simp only [List.getElem?_nil, ite_self]
    simp only [List.length_nil, List.replicate_zero, Nat.add_zero, h1, h2]
    rfl
  | x :: xs, todo, n, m, cs, seen, hc, hcap => by
    simp only [List.length_cons] at hcap
    have hlt := (List.getElem?_eq_some_iff.1 hc).1
    rw [List.length_cons, List.replicate_succ]
    unfold runCalls
    rw [hc]
    simp only [Call.step, List.map_cons, List.cons_append, Mem.append, List.length_singleton]
    rw [if_pos (by omega)]
    simp only
    rw [run_in_place grow i e xs todo (n + 1) _ _ seen (by rw [List.getElem?_set_self hlt]) (by omega)]
    refine Prod.ext ?_ ?_
    · simp only
      unfold Mem.write
      simp only [Mem.mk.injEq, true_and]
      funext a p
      by_cases h1 : a = e.arr ∧ e.off + n ≤ p
      · rw [if_pos h1, if_pos h1]
        by_cases h2 : p = e.off + n
        · rw [if_neg (by omega), h2, Nat.sub_self]
          rfl
        · rw [if_pos ⟨h1.1, by omega⟩, show p - (e.off + n) = (p - (e.off + (n + 1))) + 1 by omega, List.getElem?_cons_succ]
          rfl
      · rw [if_neg h1, if_neg (by omega), if_neg h1]
    · simp only [List.set_set]
      rw [show n + 1 + xs.length = n + (xs.length + 1) by omega]

/-- A call that appends the rest of its options and reads them. -/
theorem run_rest (grow : Nat → Nat) (i : Nat) : ∀ (xs : List CharsetOpt) (e : Slice) (m : Mem CharsetOpt) (cs : List Call)
    (seen : Option (List CharsetOpt)), Allocated m e →
    cs[i]? = some ⟨xs.map .apply ++ [.use], e, seen⟩ →
    ∃ c, (runCalls grow (List.replicate (xs.length + 1) i) m cs).2[i]? = some c ∧ c.seen = some (m.read e ++ xs)
  | [], e, m, cs, seen, _, hc => by
    have hlt := (List.getElem?_eq_some_iff.1 hc).1
    refine ⟨⟨[], e, some (m.read e)⟩, ?_, by simp⟩
    simp only [List.length_nil, Nat.zero_add, List.replicate_one, runCalls, hc, Call.step, List.map_nil, List.nil_append]
    rw [List.getElem?_set_self hlt]
  | x :: xs, e, m, cs, seen, ha, hc => by
    have hlt := (List.getElem?_eq_some_iff.1 hc).1
    rw [List.length_cons, List.replicate_succ]
    unfold runCalls
    rw [hc]
    simp only [Call.step, List.map_cons, List.cons_append]
    obtain ⟨m1, u, hu⟩ : ∃ m1 u, m.append grow e [x] = (m1, u) := ⟨_, _, rfl⟩
    obtain ⟨g1, _, _, g4, _, _⟩ := append_spec grow m _ _ ha hu
    rw [hu]
    simp only
    obtain ⟨c, h1, h2⟩ := run_rest grow i xs u m1 (cs.set i ⟨xs.map .apply ++ [.use], u, seen⟩) seen g4
      (by rw [List.getElem?_set_self hlt])
    exact ⟨c, h1, by rw [h2, g1, List.append_assoc]; rfl⟩

/-- Two calls whose options differ at position `q`, for which there is unused capacity: after the first has appended
that option, the second does; then the first reads it. -/
theorem shared_conflict (grow : Nat → Nat) (m : Mem CharsetOpt) (e : Slice) (ls : List (List CharsetOpt)) (ha : Allocated m e)
    (i j : Nat) (l l' : List CharsetOpt) (q : Nat) (x y : CharsetOpt) (hij : i ≠ j) (hl : ls[i]? = some l)
    (hl' : ls[j]? = some l') (hq : e.len + q < e.cap) (hx : l[q]? = some x) (hy : l'[q]? = some y) :
    ∃ sched c, (runCalls grow sched m (ls.map (Call.new e))).2[i]? = some c ∧
      c.seen = some (m.read e ++ l'.take (q + 1) ++ l.drop (q + 1)) := by
  have hxl := (List.getElem?_eq_some_iff.1 hx).1
  have hyl := (List.getElem?_eq_some_iff.1 hy).1
  have hci : (ls.map (Call.new e))[i]? = some ⟨(l.take (q + 1)).map .apply ++ ((l.drop (q + 1)).map .apply ++ [.use]),
      { e with len := e.len }, none⟩ := by
    rw [List.getElem?_map, hl, ← List.append_assoc, ← List.map_append, List.take_append_drop]
    rfl
  have hlt := (List.getElem?_eq_some_iff.1 hci).1
  have l1 : (l.take (q + 1)).length = q + 1 := by rw [List.length_take]; omega
  have l2 : (l'.take (q + 1)).length = q + 1 := by rw [List.length_take]; omega
  have r1 := run_in_place grow i e _ _ _ m _ _ hci (by omega)
  have hcj : ((ls.map (Call.new e)).set i ⟨(l.drop (q + 1)).map .apply ++ [.use],
      { e with len := e.len + (l.take (q + 1)).length }, none⟩)[j]? =
      some ⟨(l'.take (q + 1)).map .apply ++ ((l'.drop (q + 1)).map .apply ++ [.use]), { e with len := e.len }, none⟩ := by
    rw [List.getElem?_set_ne hij, List.getElem?_map, hl', ← List.append_assoc, ← List.map_append, List.take_append_drop]
    rfl
  have r2 := run_in_place grow j e _ _ _ (m.write e.arr (e.off + e.len) (l.take (q + 1))) _ _ hcj (by omega)
  obtain ⟨c, r3, r4⟩ := run_rest grow i (l.drop (q + 1)) { e with len := e.len + (q + 1) }
    ((m.write e.arr (e.off + e.len) (l.take (q + 1))).write e.arr (e.off + e.len) (l'.take (q + 1)))
    (((ls.map (Call.new e)).set i ⟨(l.drop (q + 1)).map .apply ++ [.use],
      { e with len := e.len + (l.take (q + 1)).length }, none⟩).set j ⟨(l'.drop (q + 1)).map .apply ++ [.use],
      { e with len := e.len + (l'.take (q + 1)).length }, none⟩) none
    ⟨ha.1, by simp only; omega⟩
    (by rw [List.getElem?_set_ne (fun h => hij h.symm), List.getElem?_set_self hlt, l1])
  refine ⟨List.replicate (l.take (q + 1)).length i ++ (List.replicate (l'.take (q + 1)).length j ++
    List.replicate ((l.drop (q + 1)).length + 1) i), c, ?_, ?_⟩
  · rw [run_append, r1, run_append]
    simp only
    rw [r2]
    exact r3
  · rw [r4]
    congr 2
    apply List.ext_getElem?
    intro k
    rw [read_get]
    simp only
    by_cases h1 : k < e.len
    · rw [if_pos (by omega), List.getElem?_append_left (by rw [read_length]; exact h1), read_get, if_pos h1, write_get, write_get]
      · omega
      · omega
    · rw [List.getElem?_append_right (by rw [read_length]; omega), read_length]
      by_cases h2 : k < e.len + (q + 1)
      · have hz : (l'.take (q + 1))[k - e.len]? = some ((l'.take (q + 1))[k - e.len]'(by omega)) :=
          List.getElem?_eq_getElem (by omega)
        rw [if_pos h2, hz, show e.off + k = e.off + e.len + (k - e.len) by omega, write_get_in _ _ _ _ _ _ hz]
      · rw [if_neg h2, List.getElem?_eq_none (by omega)]

end Verif.Proofs.Alias
