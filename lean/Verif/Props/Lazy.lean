import Verif.Proofs.LazyRace

/-! C75: concurrent first uses of a character set. -/

namespace Verif.Props
open Verif.Model Verif.Model.Lazy Verif.Spec.Race Verif.Proofs.Lazy

/-- Two goroutines, of which each finds the variable nil before the first of them stores a table. -/
theorem race_exec (m : Var → Option Table) (n : Nat) (k : Kind) (nli : Int) (hk : k ≠ .extDecoder) (hm : m (var k nli) = none)
    (t : Table) (hg : generator (var k nli) = some t) :
    ∃ h s, Exec m (n + 2) h s ∧ Race h := by
  have he : enter k nli = .check (var k nli) := by
    cases k with
    | extDecoder => exact absurd rfl hk
    | _ => rfl
  have hc : checked (var k nli) (m (var k nli)) = .store (var k nli) t := by simp [checked, hm, hg]
  let r := List.replicate n Thread.idle
  have x0 : Exec m (n + 2) [] ⟨m, [] ++ .idle :: .idle :: r⟩ := Exec.start
  have x1 := x0.step (Step.call m [] (.idle :: r) k nli)
  rw [he] at x1
  have x2 := x1.step (Step.check m [] (.idle :: r) (var k nli))
  rw [hc] at x2
  have x3 := x2.step (Step.call m [.store (var k nli) t] r k nli)
  rw [he] at x3
  have x4 := x3.step (Step.check m [.store (var k nli) t] r (var k nli))
  rw [hc] at x4
  have x5 := x4.step (Step.store m [] (.store (var k nli) t :: r) (var k nli) t)
  refine ⟨_, _, x5, .read 1 (var k nli), .write 0 (var k nli), 1, 0, var k nli, false, true, ?_, ?_, rfl, rfl, by decide, .inr rfl⟩
  · simp
  · simp

/-- **C75, counterexample**: two goroutines that encode their first messages at the same time race. -/
theorem C75_counterexample : ∃ h s, Exec initial 2 h s ∧ Race h :=
  race_exec initial 0 .encoder 0 (by decide) rfl _ rfl

/-- **C75, partial**: as far as the accesses of the goroutines are made in some order, each call returns the whole
table of the language, the one a single goroutine gets.  Missing: that they are made in some order, which Go does
not promise as there may be a race. -/
theorem C75_results_partial (n : Nat) (h : List Event) (s : State) (hx : Exec initial n h s) (i : Nat) (k : Kind) (nli : Int)
    (h1 h2 h3 : List Event) (r : Option Table) (hh : h = h1 ++ .call i k nli :: (h2 ++ .ret i r :: h3))
    (hc : ∀ k nli, Event.call i k nli ∉ h2) : r = some (table k nli) := by
  obtain ⟨k', nli', hl, hr⟩ := (inv_exec good_initial hx).rets (h1 ++ .call i k nli :: h2) h3 i r (by rw [hh]; simp)
  rw [lastCall_call i h1 h2 k nli hc] at hl
  simp only [Option.some.injEq, Prod.mk.injEq] at hl
  rw [hl.1, hl.2]
  exact hr

/-- **C75, partial**: no call of a nil generator. -/
theorem C75_no_panic_partial (n : Nat) (h : List Event) (s : State) (hx : Exec initial n h s) : Thread.panicked ∉ s.threads := by
  intro hm
  obtain ⟨i, hi, heq⟩ := List.mem_iff_getElem.1 hm
  exact (inv_exec good_initial hx).threads i .panicked (by rw [List.getElem?_eq_getElem hi, heq])

/-- **C75, partial**: whatever the other goroutines do, a goroutine in a call can always take its next step, and the
third at the latest returns. -/
theorem C75_progress_partial (n : Nat) (h : List Event) (s : State) (hx : Exec initial n h s) (i : Nat) (k : Kind) (nli : Int)
    (h1 h2 : List Event) (hh : h = h1 ++ .call i k nli :: h2) (hc : ∀ k nli, Event.call i k nli ∉ h2)
    (hr : ∀ x, s.threads[i]? = some x → x ≠ .idle) :
    (h2.filter fun e => thread e = i).length ≤ 2 ∧ ∃ e s', Step s e s' ∧ e ≠ [] ∧ ∀ x ∈ e, thread x = i := by
  have hi := inv_exec good_initial hx
  have hi' := inv'_exec good_initial hx
  have hlt : i < s.threads.length := by
    rw [hi'.len]
    exact hi'.small (.call i k nli) (by rw [hh]; simp)
  obtain ⟨x, hx'⟩ : ∃ x, s.threads[i]? = some x := ⟨_, List.getElem?_eq_getElem hlt⟩
  have ht := hi.threads i x hx'
  have ht' := hi'.threads i x hx'
  have hs := since_call i h1 h2 k nli hc
  rw [← hh] at hs
  obtain ⟨m, ts⟩ := s
  simp only at hx' hlt
  obtain ⟨a, b, rfl, ha⟩ : ∃ a b, ts = a ++ x :: b ∧ a.length = i := by
    refine ⟨ts.take i, ts.drop (i + 1), ?_, by simp; omega⟩
    have : ts[i] = x := by rw [List.getElem?_eq_getElem hlt] at hx'; simpa using hx'
    rw [← this, ← List.drop_eq_getElem_cons hlt, List.take_append_drop]
  subst ha
  cases x with
  | idle => exact absurd rfl (hr .idle (by simp))
  | panicked => exact ht.elim
  | check v => exact ⟨by have : since a.length h = 0 := ht'; omega, _, _, .check m a b v, by simp, by simp [thread]⟩
  | store v t => exact ⟨by have : since a.length h ≤ 1 := ht'.1; omega, _, _, .store m a b v t, by simp, by simp [thread]⟩
  | load v => exact ⟨by have : since a.length h ≤ 2 := ht'; omega, _, _, .load m a b v, by simp, by simp [thread]⟩

/-- **C75, exact**: after any history `h0`, goroutines can race if and only if there are two of them and the table of
some language has not been built. -/
theorem C75_exact (n0 : Nat) (h0 : List Event) (s0 : State) (hx0 : Exec initial n0 h0 s0) (n : Nat) :
    (∃ h s, Exec s0.mem n h s ∧ Race h) ↔ 2 ≤ n ∧ ∃ k nli, s0.mem (var k nli) = none := by
  have g := (inv_exec good_initial hx0).good
  constructor
  · rintro ⟨h, s, hx, a, b, i, j, v, wi, wj, ha, hb, hai, hbj, hij, hw⟩
    have hi := inv'_exec g hx
    have hia : i < n := by
      have := hi.small a ha
      cases a <;> simp [access] at hai <;> simp only [thread] at this <;> omega
    have hjb : j < n := by
      have := hi.small b hb
      cases b <;> simp [access] at hbj <;> simp only [thread] at this <;> omega
    refine ⟨by omega, ?_⟩
    have hwv : ∃ i, Event.write i v ∈ h := by
      rcases hw with hw | hw
      · refine ⟨i, ?_⟩
        cases a <;> simp [access, hw] at hai
        obtain ⟨rfl, rfl⟩ := hai; exact ha
      · refine ⟨j, ?_⟩
        cases b <;> simp [access, hw] at hbj
        obtain ⟨rfl, rfl⟩ := hbj; exact hb
    obtain ⟨i', hw'⟩ := hwv
    obtain ⟨k, nli, rfl⟩ := write_var g hx i' v hw'
    exact ⟨k, nli, hi.writes i' _ hw'⟩
  · rintro ⟨hn, k, nli, hm⟩
    obtain ⟨n', rfl⟩ : ∃ n', n = n' + 2 := ⟨n - 2, by omega⟩
    have hin : initial (var k nli) = none := by
      cases hq : initial (var k nli) with
      | none => rfl
      | some t => rw [g.keeps _ t hq] at hm; cases hm
    have hk : k ≠ .extDecoder := fun hk => by subst hk; exact initial_ext nli hin
    have hf := final_var k nli
    simp only [final, hin] at hf
    exact race_exec s0.mem n' k nli hk hm _ hf

/-- Before anything is built, there can be a race. -/
example : ∃ h s, Exec initial 2 h s ∧ Race h := (C75_exact 0 [] _ .start 2).2 ⟨by decide, .decoder, 1, rfl⟩

/-- **C75, partial**: there is no race among calls for languages for which the same function has returned before
(`h0`). -/
theorem C75_after_first_use_partial (n0 : Nat) (h0 : List Event) (s0 : State) (hx0 : Exec initial n0 h0 s0) (n : Nat)
    (h : List Event) (s : State) (hx : Exec s0.mem n h s)
    (hc : ∀ i k nli, Event.call i k nli ∈ h → ∃ i h1 h2 r h3, h0 = h1 ++ .call i k nli :: (h2 ++ .ret i r :: h3) ∧
      ∀ k nli, Event.call i k nli ∉ h2) : ¬ Race h := by
  have g := (inv_exec good_initial hx0).good
  rintro ⟨a, b, i, j, v, wi, wj, ha, hb, hai, hbj, hij, hw⟩
  have hwv : ∃ i, Event.write i v ∈ h := by
    rcases hw with hw | hw
    · refine ⟨i, ?_⟩
      cases a <;> simp [access, hw] at hai
      obtain ⟨rfl, rfl⟩ := hai; exact ha
    · refine ⟨j, ?_⟩
      cases b <;> simp [access, hw] at hbj
      obtain ⟨rfl, rfl⟩ := hbj; exact hb
  obtain ⟨i', hw'⟩ := hwv
  obtain ⟨i'', k, nli, hcall, rfl⟩ := write_call g hx i' v hw'
  obtain ⟨i0, h1, h2, r, h3, hh, hn⟩ := hc i'' k nli hcall
  exact (inv'_exec good_initial hx0).stay (h1 ++ .call i0 k nli :: h2) h3 i0 r (by rw [hh]; simp) k nli
    (lastCall_call i0 h1 h2 k nli hn) ((inv'_exec g hx).writes i' _ hw')

/-- A history after which `NewDecoder(4)` does not race; that of Bengali is built from the start. -/
example : ∃ h s, Exec initial 1 h s ∧ h = [.call 0 .decoder 4, .read 0 ⟨.decoder, 4⟩, .read 0 ⟨.decoder, 4⟩,
    .ret 0 (some (table .decoder 4))] := by
  have x1 := (Exec.start (m := initial) (n := 1)).step (Step.call initial [] [] .decoder 4)
  have x2 := x1.step (Step.check initial [] [] ⟨.decoder, 4⟩)
  have x3 := x2.step (Step.load initial [] [] ⟨.decoder, 4⟩)
  exact ⟨_, _, x3, rfl⟩

end Verif.Props
