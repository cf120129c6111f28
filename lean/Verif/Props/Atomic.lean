import Verif.Model.Atomic

/-! C44: the counter under concurrency. -/

namespace Verif.Props

open Verif.Model Verif.Model.Atomic

/-- The values returned by the `Count` calls of a history. -/
def counted : List Event → List Int := List.filterMap fun
  | .ret _ .count v => some v
  | _ => none

/-- The number of `Count` calls in a history that have returned. -/
def countReturns (h : List Event) : Nat := (counted h).length

/-- The number of `Count` calls in a history, returned or not. -/
def countCalls : List Event → Nat := List.countP fun
  | .call _ .count => true
  | _ => false

/-- The goroutine an event belongs to. -/
def Event.thread : Event → Nat
  | .call i _ => i
  | .ret i _ _ => i

/-! Helpers. -/

/-- The values held by goroutines that have incremented but not returned. -/
def pending : List Thread → List Int := List.filterMap fun
  | .done .count v => some v
  | _ => none

/-- The number of goroutines that have called `Count` but not incremented. -/
def waiting : List Thread → Nat := List.countP fun
  | .called .count => true
  | _ => false

/-- The value of the `k`-th increment. -/
def nth (w k : Nat) : Int := intOf w (Int64.ofInt k)

structure Inv (w N : Nat) (h : List Event) (s : State) : Prop where
  c : s.c = Int64.ofInt N
  perm : (counted h ++ pending s.threads).Perm ((List.range N).map (fun k => nth w (k + 1)))
  calls : countCalls h = N + waiting s.threads
  reads : ∀ j v, s.threads[j]? = some (.done .read v) → ∀ h1 h2,
    h = h1 ++ .call j .read :: h2 → (∀ e ∈ h2, Event.thread e ≠ j) →
    ∃ n, v = nth w n ∧ countReturns h1 ≤ n ∧ n ≤ countCalls h

theorem get_at {α} (a b : List α) (x : α) : (a ++ x :: b)[a.length]? = some x := by simp

theorem get_ne {α} (a b : List α) (x y : α) (j : Nat) (h : j ≠ a.length) : (a ++ x :: b)[j]? = (a ++ y :: b)[j]? := by
  by_cases hl : j < a.length
  · rw [List.getElem?_append_left hl, List.getElem?_append_left hl]
  · rw [List.getElem?_append_right (by omega), List.getElem?_append_right (by omega)]
    obtain ⟨k, hk⟩ : ∃ k, j - a.length = k + 1 := ⟨j - a.length - 1, by omega⟩
    rw [hk]; rfl

theorem countCalls_append (a b : List Event) : countCalls (a ++ b) = countCalls a + countCalls b := List.countP_append
theorem counted_append (a b : List Event) : counted (a ++ b) = counted a ++ counted b := List.filterMap_append
theorem pending_append (a b : List Thread) : pending (a ++ b) = pending a ++ pending b := List.filterMap_append
theorem waiting_append (a b : List Thread) : waiting (a ++ b) = waiting a + waiting b := List.countP_append

theorem ofInt_succ (N : Nat) : Int64.ofInt N + 1 = Int64.ofInt (N + 1 : Nat) := by
  rw [show (1 : Int64) = Int64.ofInt 1 from rfl, ← Int64.ofInt_add]; simp

/-- A later event of another goroutine does not change what is known of a pending read. -/
theorem reads_snoc (w : Nat) (h : List Event) (j : Nat) (v : Int) (e : Event) (he : Event.thread e ≠ j)
    (ih : ∀ h1 h2, h = h1 ++ .call j .read :: h2 → (∀ e ∈ h2, Event.thread e ≠ j) →
      ∃ n, v = nth w n ∧ countReturns h1 ≤ n ∧ n ≤ countCalls h) :
    ∀ h1 h2, h ++ [e] = h1 ++ .call j .read :: h2 → (∀ e ∈ h2, Event.thread e ≠ j) →
      ∃ n, v = nth w n ∧ countReturns h1 ≤ n ∧ n ≤ countCalls (h ++ [e]) := by
  intro h1 h2 heq hn
  rcases List.eq_nil_or_concat h2 with rfl | ⟨h2', x, rfl⟩
  · have := List.append_inj_right' heq rfl
    simp only [List.cons.injEq, and_true] at this
    subst this
    exact absurd rfl he
  · have heq' : h ++ [e] = (h1 ++ .call j .read :: h2') ++ [x] := by simpa using heq
    have h3 := List.append_inj_left' heq' rfl
    obtain ⟨n, a, b, c⟩ := ih h1 h2' h3 (fun e he => hn e (by simp [he]))
    exact ⟨n, a, b, by rw [countCalls_append]; omega⟩

theorem inv_exec (w n : Nat) (h : List Event) (s : State) (hx : Exec w n h s) : ∃ N, Inv w N h s := by
  induction hx with
  | start =>
    refine ⟨0, rfl, ?_, ?_, ?_⟩
    · have : pending (List.replicate n Thread.idle) = [] := by
        simp [pending]
      show ([] ++ pending (List.replicate n Thread.idle)).Perm []
      rw [this]; exact .nil
    · have : waiting (List.replicate n Thread.idle) = 0 := by
        simp [waiting, List.countP_eq_zero]
      show 0 = 0 + waiting (List.replicate n Thread.idle)
      omega
    · intro j v hj
      simp [List.getElem?_replicate] at hj
  | @step h s e s' hx hs ih =>
    obtain ⟨N, hc, hp, hw, hr⟩ := ih
    have hlen : (counted h).length ≤ N := by
      have := hp.length_eq
      simp at this; omega
    cases hs with
    | call c before after op =>
      refine ⟨N, hc, ?_, ?_, ?_⟩
      · rw [counted_append]
        simpa [pending_append, pending, counted] using hp
      · rw [countCalls_append, hw]
        cases op <;> simp [waiting, countCalls]
        omega
      · intro j v hj
        by_cases hji : j = before.length
        · subst hji; simp at hj
        · refine reads_snoc w h j v _ (fun h => hji h.symm) (hr j v ?_)
          simp only at hj ⊢
          rw [← hj]; exact get_ne _ _ _ _ _ hji
    | access c before after op =>
      rw [List.append_nil]
      simp only at hc hp hw hr
      cases op with
      | count =>
        refine ⟨N + 1, ?_, ?_, ?_, ?_⟩
        · show c + 1 = _
          rw [hc]; exact ofInt_succ N
        · have hv : (access w c .count).2 = nth w (N + 1) := by
            show intOf w (c + 1) = _
            rw [hc, ofInt_succ]; rfl
          rw [hv, List.range_succ, List.map_append]
          simp only [pending_append] at hp ⊢
          refine List.Perm.trans ?_ (hp.append_right _)
          have e1 : pending (Thread.called .count :: after) = pending after := rfl
          have e2 : pending (Thread.done .count (nth w (N + 1)) :: after) = nth w (N + 1) :: pending after := rfl
          rw [e1, e2]
          simp only [List.map_cons, List.map_nil, List.append_assoc]
          refine List.Perm.append_left _ (List.Perm.append_left _ ?_)
          exact (List.perm_append_singleton _ _).symm
        · rw [hw]
          simp [waiting]
          omega
        · intro j v hj
          by_cases hji : j = before.length
          · subst hji; simp at hj
          · apply hr j v
            rw [← hj]; exact get_ne _ _ _ _ _ hji
      | read =>
        refine ⟨N, hc, ?_, ?_, ?_⟩
        · simpa [pending_append, pending] using hp
        · rw [hw]
          simp [waiting]
        · intro j v hj
          by_cases hji : j = before.length
          · subst hji
            simp only [List.getElem?_append_right (Nat.le_refl _), Nat.sub_self, List.getElem?_cons_zero,
              Option.some.injEq, Thread.done.injEq, true_and] at hj
            intro h1 h2 heq _
            refine ⟨N, ?_, ?_, by omega⟩
            · rw [← hj]
              show intOf w c = _
              rw [hc]; rfl
            · rw [heq, counted_append] at hlen
              simp only [List.length_append] at hlen
              unfold countReturns
              omega
          · apply hr j v
            rw [← hj]; exact get_ne _ _ _ _ _ hji
    | ret c before after op v =>
      simp only at hc hp hw hr
      refine ⟨N, hc, ?_, ?_, ?_⟩
      · rw [counted_append]
        cases op with
        | read => simpa [pending_append, pending, counted] using hp
        | count =>
          refine List.Perm.trans ?_ hp
          simp only [pending_append]
          have e1 : pending (Thread.idle :: after) = pending after := rfl
          have e2 : pending (Thread.done .count v :: after) = v :: pending after := rfl
          have e3 : counted [.ret before.length .count v] = [v] := rfl
          rw [e1, e2, e3, List.append_assoc]
          refine List.Perm.append_left _ ?_
          show (v :: (pending before ++ pending after)).Perm _
          exact List.perm_middle.symm
      · rw [countCalls_append, hw]
        simp [waiting, countCalls]
      · intro j v' hj
        by_cases hji : j = before.length
        · subst hji; simp at hj
        · refine reads_snoc w h j v' _ (fun h => hji h.symm) (hr j v' ?_)
          simp only at hj ⊢
          rw [← hj]; exact get_ne _ _ _ _ _ hji

theorem nth_eq (w k : Nat) (hw : w ≤ 64) : nth w k = (k : Int).bmod (2 ^ w) := by
  unfold nth intOf
  rw [Int64.toInt_ofInt]
  exact Int.bmod_bmod_of_dvd (Nat.pow_dvd_pow 2 hw)

theorem nth_small (w k : Nat) (hw : w ≤ 64) (hk : k < 2 ^ (w - 1)) : nth w k = k := by
  rw [nth_eq w k hw]
  cases w with
  | zero => simp at hk; subst hk; rfl
  | succ w =>
    simp only [Nat.add_sub_cancel] at hk
    apply Int.bmod_eq_of_le <;> · rw [Nat.pow_succ]; omega

theorem nth_inj (w j k : Nat) (hw : w ≤ 64) (hjk : j < k) (hk : k < j + 2 ^ w) : nth w j ≠ nth w k := by
  rw [nth_eq w j hw, nth_eq w k hw]
  intro h
  have h2 := congrArg (fun x : Int => x % ((2 ^ w : Nat) : Int)) h
  simp only [Int.bmod_emod] at h2
  have h3 : j % 2 ^ w = k % 2 ^ w := by exact_mod_cast h2
  have h4 : (k - j) % 2 ^ w = 0 := Nat.sub_mod_eq_zero_of_mod_eq h3.symm
  rw [Nat.mod_eq_of_lt (by omega)] at h4
  omega

theorem nodup_nth (w : Nat) (hw : w ≤ 64) : ∀ N, N ≤ 2 ^ w → ((List.range N).map (fun k => nth w (k + 1))).Nodup := by
  intro N hN
  rw [List.nodup_iff_pairwise_ne, List.pairwise_map]
  refine List.Pairwise.imp_of_mem ?_ List.pairwise_lt_range
  intro a b ha hb hab
  have := List.mem_range.mp hb
  exact nth_inj w _ _ hw (by omega) (by omega)

/-- Any history can be stopped before any of its events. -/
theorem exec_prefix (w n : Nat) (h : List Event) (s : State) (hx : Exec w n h s) : ∀ a e b, h = a ++ e :: b →
    ∃ s0 s1, Exec w n a s0 ∧ Step w s0 [e] s1 := by
  induction hx with
  | start => intro a e b h; simp at h
  | @step h s es s' hx hs ih =>
    intro a e b heq
    have hcase : es = [] ∨ ∃ x, es = [x] := by cases hs <;> simp
    rcases hcase with rfl | ⟨x, rfl⟩
    · rw [List.append_nil] at heq; exact ih a e b heq
    · rcases List.eq_nil_or_concat b with rfl | ⟨b', y, rfl⟩
      · have h1 := List.append_inj_left' heq rfl
        have h2 := List.append_inj_right' heq rfl
        cases h2; subst h1
        exact ⟨s, s', hx, hs⟩
      · have heq' : h ++ [x] = (a ++ e :: b') ++ [y] := by simpa using heq
        exact ih a e b' (List.append_inj_left' heq' rfl)

/-- C44, partial: the values returned by concurrent `Count` calls are pairwise distinct, for any number of
goroutines and any interleaving, on a platform with `w`-bit `int`s.  Missing: after `2 ^ w` calls values
repeat (`C44_wraps`). -/
theorem C44_distinct_partial (w n : Nat) (hw : w ≤ 64) (h : List Event) (s : State) (hx : Exec w n h s)
    (hN : countCalls h ≤ 2 ^ w) : (counted h).Nodup := by
  obtain ⟨N, _, hp, hc, _⟩ := inv_exec w n h s hx
  have := hp.nodup_iff.mpr (nodup_nth w hw N (by omega))
  exact (List.nodup_append.mp this).1

/-- C44: no value is skipped either: once all calls have returned, the values are 1, 2, ... -/
theorem C44_values_partial (w n : Nat) (hw : w ≤ 64) (h : List Event) (s : State) (hx : Exec w n h s)
    (hN : countCalls h < 2 ^ (w - 1)) (hall : countCalls h = countReturns h) :
    (counted h).Perm ((List.range (countCalls h)).map (fun k => ((k + 1 : Nat) : Int))) := by
  obtain ⟨N, _, hp, hc, _⟩ := inv_exec w n h s hx
  have hl := hp.length_eq
  simp only [List.length_append, List.length_map, List.length_range] at hl
  unfold countReturns at hall
  have h0 : pending s.threads = [] := List.eq_nil_of_length_eq_zero (by omega)
  rw [h0, List.append_nil] at hp
  have hN' : N = countCalls h := by omega
  rw [hN'] at hp
  refine hp.trans (.of_eq ?_)
  apply List.map_congr_left
  intro k hk
  have := List.mem_range.mp hk
  exact nth_small w _ hw (by omega)

/-- C44: `Read` returns a number of increments that was right at some time during the call: at least the calls
of `Count` that had returned before it was called, at most those called before it returned. -/
theorem C44_read_partial (w n : Nat) (hw : w ≤ 64) (h : List Event) (s : State) (hx : Exec w n h s)
    (hN : countCalls h < 2 ^ (w - 1)) (i : Nat) (v : Int) (h1 h2 h3 : List Event)
    (heq : h = h1 ++ .call i .read :: h2 ++ .ret i .read v :: h3) (hi : ∀ e ∈ h2, Event.thread e ≠ i) :
    (countReturns h1 : Int) ≤ v ∧ v ≤ countCalls (h1 ++ h2) := by
  obtain ⟨s0, s1, hx0, hs⟩ := exec_prefix w n h s hx _ _ _ heq
  obtain ⟨N, _, _, _, hr⟩ := inv_exec w n _ s0 hx0
  have hth : s0.threads[i]? = some (.done .read v) := by
    generalize he : [Event.ret i .read v] = e at hs
    cases hs with
    | call => simp at he
    | access => simp at he
    | ret c before after op v =>
      simp only [List.cons.injEq, Event.ret.injEq, and_true] at he
      obtain ⟨rfl, rfl, rfl⟩ := he
      exact get_at _ _ _
  obtain ⟨m, rfl, ha, hb⟩ := hr i v hth h1 h2 rfl hi
  have e1 : countCalls (h1 ++ .call i .read :: h2) = countCalls (h1 ++ h2) := by
    rw [countCalls_append, countCalls_append]; rfl
  rw [e1] at hb
  have e2 : countCalls h = countCalls (h1 ++ .call i .read :: h2) + countCalls (.ret i .read (nth w m) :: h3) := by
    rw [heq, countCalls_append]
  rw [nth_small w m hw (by omega)]
  constructor <;> omega

/-- C44: so a `Read` that does not overlap any `Count` returns the number of completed calls exactly. -/
theorem C44_read_quiet_partial (w n : Nat) (hw : w ≤ 64) (h : List Event) (s : State) (hx : Exec w n h s)
    (hN : countCalls h < 2 ^ (w - 1)) (i : Nat) (v : Int) (h1 h2 h3 : List Event)
    (heq : h = h1 ++ .call i .read :: h2 ++ .ret i .read v :: h3) (hi : ∀ e ∈ h2, Event.thread e ≠ i)
    (hbefore : countCalls h1 = countReturns h1) (hduring : countCalls h2 = 0) : v = countReturns h1 := by
  obtain ⟨a, b⟩ := C44_read_partial w n hw h s hx hN i v h1 h2 h3 heq hi
  rw [countCalls_append, hduring] at b
  omega

/-- One goroutine counting `k` times. -/
theorem exec_seq (w k : Nat) : ∃ h, Exec w 1 h ⟨Int64.ofInt k, [.idle]⟩ ∧
    counted h = (List.range k).map (fun k => nth w (k + 1)) := by
  induction k with
  | zero => exact ⟨[], .start, rfl⟩
  | succ k ih =>
    obtain ⟨h, hx, hc⟩ := ih
    have h1 := Exec.step hx (.call (Int64.ofInt k) [] [] .count)
    have h2 := Exec.step h1 (.access (Int64.ofInt k) [] [] .count)
    have h3 := Exec.step h2 (.ret _ [] [] .count _)
    refine ⟨h ++ [.call 0 .count] ++ [] ++ [.ret 0 .count (intOf w (Int64.ofInt k + 1))], ?_, ?_⟩
    · have := ofInt_succ k
      rw [← this]
      exact h3
    · rw [counted_append, counted_append, counted_append, hc, List.range_succ, List.map_append]
      show _ ++ [] ++ [] ++ [intOf w (Int64.ofInt k + 1)] = _
      rw [ofInt_succ]
      simp [nth]

/-- C44 without a bound on the number of calls is false: call `2 ^ w + 1` returns the same value as call 1. -/
theorem C44_wraps (w : Nat) (hw : w ≤ 64) : ∃ h s, Exec w 1 h s ∧ ¬ (counted h).Nodup := by
  obtain ⟨h, hx, hc⟩ := exec_seq w (2 ^ w + 1)
  refine ⟨h, _, hx, ?_⟩
  rw [hc, List.range_succ, List.map_append]
  intro hn
  have hd := (List.nodup_append.mp hn).2.2 (nth w (0 + 1)) ?_ (nth w (2 ^ w + 1)) (by simp)
  · apply hd
    rw [nth_eq w _ hw, nth_eq w _ hw]
    have : ((2 ^ w + 1 : Nat) : Int) = ((0 + 1 : Nat) : Int) + ((2 ^ w : Nat) : Int) := by omega
    rw [this, Int.add_bmod_right]
  · refine List.mem_map.mpr ⟨0, ?_, rfl⟩
    exact List.mem_range.mpr (Nat.two_pow_pos w)

/-- Beside C44: two goroutines whose calls overlap, and a read that overlaps one of them. -/
example : ∃ s, Exec 64 2 [.call 0 .count, .call 1 .count, .ret 1 .count 1, .call 1 .read, .ret 0 .count 2, .ret 1 .read 2] s := by
  have h1 := Exec.step (w := 64) (n := 2) .start (.call 0 [] [.idle] .count)
  have h2 := Exec.step h1 (.call 0 [.called .count] [] .count)
  have h3 := Exec.step h2 (.access 0 [.called .count] [] .count)
  have h4 := Exec.step h3 (.ret _ [.called .count] [] .count _)
  have h5 := Exec.step h4 (.call _ [.called .count] [] .read)
  have h6 := Exec.step h5 (.access _ [] [.called .read] .count)
  have h7 := Exec.step h6 (.access _ [.done .count _] [] .read)
  have h8 := Exec.step h7 (.ret _ [] [.done .read _] .count _)
  have h9 := Exec.step h8 (.ret _ [.idle] [] .read _)
  exact ⟨_, h9⟩

end Verif.Props
