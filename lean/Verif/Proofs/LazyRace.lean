import Verif.Proofs.Lazy

/-! Who writes what in `Model/Lazy.lean`, and how long a call takes. -/

namespace Verif.Proofs.Lazy
open Verif.Model Verif.Model.Lazy Verif.Spec.Race

/-- What becomes of `since` with an event. -/
def snStep (i : Nat) (c : Nat) : Event → Nat
  | .call j _ _ => if j = i then 0 else c
  | e => if thread e = i then c + 1 else c

/-- The number of events of a goroutine since its last call. -/
def since (i : Nat) (h : List Event) : Nat := h.foldl (snStep i) 0

theorem since_snoc (i : Nat) (h : List Event) (e : Event) : since i (h ++ [e]) = snStep i (since i h) e := by
  unfold since
  rw [List.foldl_append]
  rfl

/-- What is known of a goroutine besides `ThreadOk`; `m0` are the variables at the beginning. -/
def ThreadOk' (m0 : Var → Option Table) (i : Nat) (h : List Event) : Thread → Prop
  | .idle => True
  | .check _ => since i h = 0
  | .store v _ => since i h ≤ 1 ∧ m0 v = none
  | .load _ => since i h ≤ 2
  | .panicked => True

structure Inv' (m0 : Var → Option Table) (n : Nat) (h : List Event) (s : State) : Prop where
  keeps : ∀ v, m0 v ≠ none → s.mem v ≠ none
  len : s.threads.length = n
  small : ∀ e ∈ h, thread e < n
  threads : ∀ i x, s.threads[i]? = some x → ThreadOk' m0 i h x
  writes : ∀ i v, Event.write i v ∈ h → m0 v = none
  stay : ∀ p q i r, h = p ++ .ret i r :: q → ∀ k nli, lastCall i p = some (k, nli) → s.mem (var k nli) ≠ none

theorem ThreadOk'.other {m0 : Var → Option Table} {i : Nat} {h h' : List Event} {x : Thread} (e : since i h' = since i h)
    (hx : ThreadOk' m0 i h x) : ThreadOk' m0 i h' x := by
  cases x <;> first | trivial | simpa [ThreadOk', e] using hx

theorem stay_snoc {h : List Event} {e : Event} {m m' : Var → Option Table} (he : ∀ i r, e ≠ .ret i r) (hm : ∀ v, m v ≠ none → m' v ≠ none)
    (ih : ∀ p q i r, h = p ++ .ret i r :: q → ∀ k nli, lastCall i p = some (k, nli) → m (var k nli) ≠ none) :
    ∀ p q i r, h ++ [e] = p ++ .ret i r :: q → ∀ k nli, lastCall i p = some (k, nli) → m' (var k nli) ≠ none := by
  intro p q i r heq
  rcases snoc_split _ _ _ _ _ heq with ⟨_, _, h3⟩ | ⟨q', _, h2⟩
  · exact absurd h3 (he i r)
  · exact fun k nli hl => hm _ (ih p q' i r h2 k nli hl)

theorem inv'_step {m0 : Var → Option Table} {n : Nat} {h : List Event} {s : State} {e : List Event} {s' : State} (hi : Inv h s)
    (hi' : Inv' m0 n h s) (hs : Step s e s') : Inv' m0 n (h ++ e) s' := by
  obtain ⟨hk, hn, hsm, ht, hw, hst⟩ := hi'
  cases hs with
  | call m before after k nli =>
    simp only [List.length_append, List.length_cons] at hn
    refine ⟨hk, by simpa using hn, ?_, fun i x hx => ?_, ?_, stay_snoc (by intros; simp) (fun _ h => h) hst⟩
    · intro e he
      rcases List.mem_append.1 he with he | he
      · exact hsm e he
      · simp at he; subst he; show before.length < n; omega
    · simp only at hx
      rcases get_set before after .idle _ i x hx with ⟨rfl, rfl⟩ | ⟨hne, hx'⟩
      · have : since before.length (h ++ [.call before.length k nli]) = 0 := by rw [since_snoc]; simp [snStep]
        cases k <;> simp [enter, ThreadOk', this]
      · refine (ht i x hx').other ?_
        rw [since_snoc]
        simp [snStep, Ne.symm hne]
    · intro i v hm
      simp at hm
      exact hw i v hm
  | check m before after v =>
    simp only [List.length_append, List.length_cons] at hn
    refine ⟨hk, by simpa using hn, ?_, fun i x hx => ?_, ?_, stay_snoc (by intros; simp) (fun _ h => h) hst⟩
    · intro e he
      rcases List.mem_append.1 he with he | he
      · exact hsm e he
      · simp at he; subst he; show before.length < n; omega
    · simp only at hx
      rcases get_set before after (.check v) _ i x hx with ⟨rfl, rfl⟩ | ⟨hne, hx'⟩
      · have h0 : since before.length h = 0 := ht before.length (.check v) (by simp)
        have : since before.length (h ++ [.read before.length v]) = 1 := by rw [since_snoc]; simp [snStep, thread, h0]
        simp only at hk
        cases hm : m v with
        | some t => simp [checked, ThreadOk', this]
        | none =>
          simp only [checked]
          have h00 : m0 v = none := by
            cases hq : m0 v with
            | none => rfl
            | some t => exact absurd hm (hk v (by simp [hq]))
          split
          · exact ⟨by omega, h00⟩
          · trivial
      · refine (ht i x hx').other ?_
        rw [since_snoc]
        simp [snStep, thread, Ne.symm hne]
    · intro i w hm
      simp at hm
      exact hw i w hm
  | store m before after v t =>
    obtain ⟨h1, h2⟩ := ht before.length (.store v t) (by simp)
    simp only [List.length_append, List.length_cons] at hn
    have hmono : ∀ w, m w ≠ none → assign m v t w ≠ none := by
      intro w hw
      unfold Model.Lazy.assign
      split
      · exact Option.some_ne_none _
      · exact hw
    refine ⟨fun w hw => hmono w (hk w hw), by simpa using hn, ?_, fun i x hx => ?_, ?_, stay_snoc (by intros; simp) hmono hst⟩
    · intro e he
      rcases List.mem_append.1 he with he | he
      · exact hsm e he
      · simp at he; subst he; show before.length < n; omega
    · simp only at hx
      rcases get_set before after (.store v t) _ i x hx with ⟨rfl, rfl⟩ | ⟨hne, hx'⟩
      · have : since before.length (h ++ [.write before.length v]) = since before.length h + 1 := by rw [since_snoc]; simp [snStep, thread]
        show since _ _ ≤ 2
        omega
      · refine (ht i x hx').other ?_
        rw [since_snoc]
        simp [snStep, thread, Ne.symm hne]
    · intro i w hm
      rcases List.mem_append.1 hm with hm | hm
      · exact hw i w hm
      · simp at hm; rw [hm.2]; exact h2
  | load m before after v =>
    simp only [List.length_append, List.length_cons] at hn
    rw [show h ++ [Event.read before.length v, .ret before.length (m v)]
        = (h ++ [.read before.length v]) ++ [.ret before.length (m v)] by simp]
    refine ⟨hk, by simpa using hn, ?_, fun i x hx => ?_, ?_, ?_⟩
    · intro e he
      simp at he
      rcases he with he | rfl | rfl
      · exact hsm e he
      · show before.length < n; omega
      · show before.length < n; omega
    · simp only at hx
      rcases get_set before after (.load v) _ i x hx with ⟨rfl, rfl⟩ | ⟨hne, hx'⟩
      · trivial
      · refine (ht i x hx').other ?_
        rw [since_snoc, since_snoc]
        simp [snStep, thread, Ne.symm hne]
    · intro i w hm
      simp at hm
      exact hw i w hm
    · intro p q i r heq
      rcases snoc_split _ _ _ _ _ heq with ⟨_, h2, h3⟩ | ⟨q', _, h2⟩
      · simp only [Event.ret.injEq] at h3
        obtain ⟨rfl, rfl⟩ := h3
        obtain ⟨k, nli, a, b, c⟩ := hi.threads before.length (.load v) (by simp)
        intro k' nli' hl
        rw [← h2, lastCall_snoc] at hl
        simp only [lcStep, a, Option.some.injEq, Prod.mk.injEq] at hl
        obtain ⟨rfl, rfl⟩ := hl
        rw [← b]; exact c
      · exact stay_snoc (by intros; simp) (fun _ h => h) hst p q' i r h2

theorem inv'_exec {m : Var → Option Table} (g : Good m) {n : Nat} {h : List Event} {s : State} (hx : Exec m n h s) : Inv' m n h s := by
  induction hx with
  | start =>
    refine ⟨fun _ h => h, by simp, by simp, fun i x hi => ?_, by simp, ?_⟩
    · simp only [List.getElem?_replicate] at hi
      split at hi
      · cases hi; trivial
      · cases hi
    · intro p q i r heq
      cases p <;> cases heq
  | step hx hs ih => exact inv'_step (inv_exec g hx) ih hs

theorem lastCall_call (i : Nat) (p q : List Event) (k : Kind) (nli : Int) (hq : ∀ k nli, Event.call i k nli ∉ q) :
    lastCall i (p ++ .call i k nli :: q) = some (k, nli) := by
  have h : ∀ (q : List Event) c, (∀ k nli, Event.call i k nli ∉ q) → q.foldl (lcStep i) c = c := by
    intro q
    induction q with
    | nil => intros; rfl
    | cons e q ih =>
      intro c hc
      rw [List.foldl_cons, ih _ (fun k nli hm => hc k nli (List.mem_cons_of_mem _ hm))]
      cases e with
      | call j k nli =>
        simp only [lcStep]
        split
        · next hji => subst hji; exact absurd (List.mem_cons_self ..) (hc k nli)
        · rfl
      | _ => rfl
  unfold lastCall
  rw [List.foldl_append, List.foldl_cons, h q _ hq]
  simp [lcStep]

theorem since_call (i : Nat) (p q : List Event) (k : Kind) (nli : Int) (hq : ∀ k nli, Event.call i k nli ∉ q) :
    since i (p ++ .call i k nli :: q) = (q.filter fun e => thread e = i).length := by
  have h : ∀ (q : List Event) c, (∀ k nli, Event.call i k nli ∉ q) →
      q.foldl (snStep i) c = c + (q.filter fun e => thread e = i).length := by
    intro q
    induction q with
    | nil => intros; simp
    | cons e q ih =>
      intro c hc
      rw [List.foldl_cons, ih _ (fun k nli hm => hc k nli (List.mem_cons_of_mem _ hm))]
      cases e with
      | call j k nli =>
        have hji : j ≠ i := fun hji => by subst hji; exact absurd (List.mem_cons_self ..) (hc k nli)
        simp [hji, thread, snStep]
      | read j v => by_cases hji : j = i <;> simp [hji, thread, snStep]; omega
      | write j v => by_cases hji : j = i <;> simp [hji, thread, snStep]; omega
      | ret j v => by_cases hji : j = i <;> simp [hji, thread, snStep]; omega
  unfold since
  rw [List.foldl_append, List.foldl_cons, h q _ hq]
  simp [snStep]

theorem lastCall_mem (i : Nat) (h : List Event) (k : Kind) (nli : Int) (hl : lastCall i h = some (k, nli)) : Event.call i k nli ∈ h := by
  suffices hs : ∀ (h : List Event) c, h.foldl (lcStep i) c = some (k, nli) → c = some (k, nli) ∨ Event.call i k nli ∈ h by
    rcases hs h none hl with h' | h'
    · cases h'
    · exact h'
  intro h
  induction h with
  | nil => intro c hc; exact .inl hc
  | cons e h ih =>
    intro c hc
    rw [List.foldl_cons] at hc
    rcases ih _ hc with h' | h'
    · cases e with
      | call j k' nli' =>
        simp only [lcStep] at h'
        split at h'
        · next hj => subst hj; cases h'; exact .inr (List.mem_cons_self ..)
        · exact .inl h'
      | _ => exact .inl h'
    · exact .inr (List.mem_cons_of_mem _ h')

/-- Only variables of calls are written. -/
theorem write_call {m : Var → Option Table} (g : Good m) {n : Nat} {h : List Event} {s : State} (hx : Exec m n h s) (i : Nat) (v : Var)
    (hw : Event.write i v ∈ h) : ∃ i k nli, Event.call i k nli ∈ h ∧ v = var k nli := by
  induction hx with
  | start => cases hw
  | @step h s e s' hx hs ih =>
    rcases List.mem_append.1 hw with hw | hw
    · obtain ⟨i, k, nli, h1, h2⟩ := ih hw
      exact ⟨i, k, nli, List.mem_append_left _ h1, h2⟩
    · cases hs with
      | call => simp at hw
      | check => simp at hw
      | load => simp at hw
      | store m before after v t =>
        simp at hw
        obtain ⟨rfl, rfl⟩ := hw
        obtain ⟨k, nli, a, b, _⟩ := (inv_exec g hx).threads before.length (.store v t) (by simp)
        exact ⟨_, k, nli, List.mem_append_left _ (lastCall_mem _ _ _ _ a), b⟩

theorem write_var {m : Var → Option Table} (g : Good m) {n : Nat} {h : List Event} {s : State} (hx : Exec m n h s) (i : Nat) (v : Var)
    (hw : Event.write i v ∈ h) : ∃ k nli, v = var k nli :=
  let ⟨_, k, nli, _, h⟩ := write_call g hx i v hw
  ⟨k, nli, h⟩

end Verif.Proofs.Lazy
