import Verif.Spec.Race

/-! Lemmas about `Model/Lazy.lean`. -/

namespace Verif.Proofs.Lazy
open Verif.Model Verif.Model.Lazy Verif.Spec.Race

/-- The value a variable has from some time on. -/
def final (v : Var) : Option Table :=
  match initial v with
  | some t => some t
  | none => generator v

theorem listed_cases (k : Kind) (nli : Int) (h : listed k nli = true) : nli = (nli.toNat : Int) ∧ 1 ≤ nli.toNat ∧ nli.toNat ≤ 13 ∧
    ((k = .decoder ∨ k = .encoder) → nli.toNat ≠ 2) := by
  cases k <;> simp [listed] at h <;> refine ⟨by omega, by omega, by omega, ?_⟩ <;> simp <;> omega

theorem unlisted (k : Kind) (nli : Int) (h : listed k nli = false) : table k nli = table k 0 := by
  cases k <;> simp [listed] at h <;> simp only [table] <;>
    simp only [Charset.NewDecoder, Charset.NewExtDecoder, Charset.NewEncoder, Charset.NewExtEncoder] <;> congr 1 <;>
    split <;> first | omega | rfl

theorem final_var (k : Kind) (nli : Int) : final (var k nli) = some (table k nli) := by
  cases h : listed k nli with
  | false =>
    rw [unlisted k nli h]
    simp only [var, h]
    cases k <;> rfl
  | true =>
    obtain ⟨h0, h1, h2, h3⟩ := listed_cases k nli h
    simp only [var, h, if_true]
    generalize nli.toNat = n at h0 h1 h2 h3
    subst h0
    have : n = 1 ∨ n = 2 ∨ n = 3 ∨ n = 4 ∨ n = 5 ∨ n = 6 ∨ n = 7 ∨ n = 8 ∨ n = 9 ∨ n = 10 ∨ n = 11 ∨ n = 12 ∨ n = 13 := by omega
    rcases this with rfl | rfl | rfl | rfl | rfl | rfl | rfl | rfl | rfl | rfl | rfl | rfl | rfl <;> cases k <;>
      first | rfl | exact absurd rfl (h3 (.inl rfl)) | exact absurd rfl (h3 (.inr rfl))

theorem initial_ext (nli : Int) : initial (var .extDecoder nli) ≠ none := by
  cases h : listed .extDecoder nli with
  | false => simp only [var, h]; exact Option.some_ne_none _
  | true =>
    obtain ⟨h0, h1, h2, h3⟩ := listed_cases .extDecoder nli h
    simp only [var, h, if_true]
    generalize nli.toNat = n at h0 h1 h2 h3
    have : n = 1 ∨ n = 2 ∨ n = 3 ∨ n = 4 ∨ n = 5 ∨ n = 6 ∨ n = 7 ∨ n = 8 ∨ n = 9 ∨ n = 10 ∨ n = 11 ∨ n = 12 ∨ n = 13 := by omega
    rcases this with rfl | rfl | rfl | rfl | rfl | rfl | rfl | rfl | rfl | rfl | rfl | rfl | rfl <;> exact Option.some_ne_none _

/-- What the variables may be. -/
structure Good (m : Var → Option Table) : Prop where
  keeps : ∀ v t, initial v = some t → m v = some t
  right : ∀ v t, m v = some t → final v = some t

theorem good_initial : Good initial := ⟨fun _ _ h => h, fun v t h => by simp [final, h]⟩

theorem Good.assign {m : Var → Option Table} (g : Good m) (v : Var) (t : Table) (h : final v = some t) : Good (assign m v t) := by
  refine ⟨fun w u hw => ?_, fun w u hw => ?_⟩
  · unfold Model.Lazy.assign
    split
    · next e => subst e; simp only [final, hw] at h; exact h.symm
    · exact g.keeps w u hw
  · unfold Model.Lazy.assign at hw
    split at hw
    · next e => subst e; rw [← hw]; exact h
    · exact g.right w u hw

/-- What becomes of the last call of a goroutine with an event. -/
def lcStep (i : Nat) (c : Option (Kind × Int)) : Event → Option (Kind × Int)
  | .call j k nli => if j = i then some (k, nli) else c
  | _ => c

/-- The last call of a goroutine. -/
def lastCall (i : Nat) (h : List Event) : Option (Kind × Int) := h.foldl (lcStep i) none

/-- What is known of a goroutine, given its last call. -/
def ThreadOk (m : Var → Option Table) (c : Option (Kind × Int)) : Thread → Prop
  | .idle => True
  | .check v => ∃ k nli, c = some (k, nli) ∧ v = var k nli
  | .store v t => ∃ k nli, c = some (k, nli) ∧ v = var k nli ∧ final v = some t
  | .load v => ∃ k nli, c = some (k, nli) ∧ v = var k nli ∧ m v ≠ none
  | .panicked => False

structure Inv (h : List Event) (s : State) : Prop where
  good : Good s.mem
  threads : ∀ i x, s.threads[i]? = some x → ThreadOk s.mem (lastCall i h) x
  rets : ∀ p q i r, h = p ++ .ret i r :: q → ∃ k nli, lastCall i p = some (k, nli) ∧ r = some (table k nli)

theorem ThreadOk.mono {m m' : Var → Option Table} {c : Option (Kind × Int)} {x : Thread} (hm : ∀ v, m v ≠ none → m' v ≠ none)
    (h : ThreadOk m c x) : ThreadOk m' c x := by
  cases x with
  | load v => obtain ⟨k, nli, a, b, d⟩ := h; exact ⟨k, nli, a, b, hm v d⟩
  | _ => exact h

theorem get_set {α} (a b : List α) (x y : α) (j : Nat) (z : α) (h : (a ++ y :: b)[j]? = some z) :
    (j = a.length ∧ z = y) ∨ (j ≠ a.length ∧ (a ++ x :: b)[j]? = some z) := by
  by_cases hj : j = a.length
  · subst hj; simp at h; exact .inl ⟨rfl, h.symm⟩
  · refine .inr ⟨hj, ?_⟩
    rw [← h]
    by_cases hl : j < a.length
    · rw [List.getElem?_append_left hl, List.getElem?_append_left hl]
    · rw [List.getElem?_append_right (by omega), List.getElem?_append_right (by omega)]
      obtain ⟨k, hk⟩ : ∃ k, j - a.length = k + 1 := ⟨j - a.length - 1, by omega⟩
      rw [hk]; rfl

theorem snoc_split {α} (h p q : List α) (e x : α) (heq : h ++ [e] = p ++ x :: q) :
    (q = [] ∧ h = p ∧ e = x) ∨ ∃ q', q = q' ++ [e] ∧ h = p ++ x :: q' := by
  rcases List.eq_nil_or_concat q with rfl | ⟨q', y, rfl⟩
  · have h1 := List.append_inj_left' heq rfl
    have h2 := List.append_inj_right' heq rfl
    exact .inl ⟨rfl, h1, by simpa using h2⟩
  · have heq' : h ++ [e] = (p ++ x :: q') ++ [y] := by simpa using heq
    have h1 := List.append_inj_left' heq' rfl
    have h2 := List.append_inj_right' heq' rfl
    simp at h2
    exact .inr ⟨q', by simp [h2], h1⟩

theorem rets_snoc {h : List Event} {e : Event} (he : ∀ i r, e ≠ .ret i r)
    (ih : ∀ p q i r, h = p ++ .ret i r :: q → ∃ k nli, lastCall i p = some (k, nli) ∧ r = some (table k nli)) :
    ∀ p q i r, h ++ [e] = p ++ .ret i r :: q → ∃ k nli, lastCall i p = some (k, nli) ∧ r = some (table k nli) := by
  intro p q i r heq
  rcases snoc_split _ _ _ _ _ heq with ⟨_, _, h3⟩ | ⟨q', _, h2⟩
  · exact absurd h3 (he i r)
  · exact ih p q' i r h2

theorem lastCall_snoc (i : Nat) (h : List Event) (e : Event) : lastCall i (h ++ [e]) = lcStep i (lastCall i h) e := by
  unfold lastCall
  rw [List.foldl_append]
  rfl

theorem inv_step {h : List Event} {s : State} {e : List Event} {s' : State} (hi : Inv h s) (hs : Step s e s') : Inv (h ++ e) s' := by
  obtain ⟨hg, ht, hr⟩ := hi
  cases hs with
  | call m before after k nli =>
    refine ⟨hg, fun i x hx => ?_, rets_snoc (by intros; simp) hr⟩
    simp only at hx hg ht
    rw [lastCall_snoc]
    rcases get_set before after .idle _ i x hx with ⟨rfl, rfl⟩ | ⟨hne, hx'⟩
    · simp only [lcStep, if_true]
      cases k with
      | extDecoder =>
        refine ⟨.extDecoder, nli, rfl, rfl, ?_⟩
        intro hn
        cases hq : initial (var .extDecoder nli) with
        | none => exact initial_ext nli hq
        | some t => rw [hg.keeps _ t hq] at hn; cases hn
      | _ => exact ⟨_, nli, rfl, rfl⟩
    · simp only [lcStep, if_neg (Ne.symm hne)]
      exact ht i x hx'
  | check m before after v =>
    refine ⟨hg, fun i x hx => ?_, rets_snoc (by intros; simp) hr⟩
    simp only at hx hg ht
    rw [lastCall_snoc]
    simp only [lcStep]
    rcases get_set before after (.check v) _ i x hx with ⟨rfl, rfl⟩ | ⟨hne, hx'⟩
    · obtain ⟨k, nli, a, b⟩ := ht before.length (.check v) (by simp)
      cases hm : m v with
      | some t => exact ⟨k, nli, a, b, by simp [hm]⟩
      | none =>
        have hf : final v = some (table k nli) := by rw [b]; exact final_var k nli
        have hin : initial v = none := by
          cases hq : initial v with
          | none => rfl
          | some t => rw [hg.keeps v t hq] at hm; cases hm
        simp only [final, hin] at hf
        simp only [checked, hf]
        exact ⟨k, nli, a, b, by simp only [final, hin, hf]⟩
    · exact ht i x hx'
  | store m before after v t =>
    obtain ⟨k, nli, a, b, c⟩ := ht before.length (.store v t) (by simp)
    have hmono : ∀ w, m w ≠ none → assign m v t w ≠ none := by
      intro w hw
      unfold Model.Lazy.assign
      split
      · exact Option.some_ne_none _
      · exact hw
    refine ⟨hg.assign v t c, fun i x hx => ?_, rets_snoc (by intros; simp) hr⟩
    simp only at hx hg ht
    rw [lastCall_snoc]
    simp only [lcStep]
    rcases get_set before after (.store v t) _ i x hx with ⟨rfl, rfl⟩ | ⟨hne, hx'⟩
    · exact ⟨k, nli, a, b, by simp [Model.Lazy.assign]⟩
    · exact (ht i x hx').mono hmono
  | load m before after v =>
    obtain ⟨k, nli, a, b, c⟩ := ht before.length (.load v) (by simp)
    have hl : ∀ i, lastCall i (h ++ [.read before.length v]) = lastCall i h := by
      intro i; rw [lastCall_snoc]; rfl
    refine ⟨hg, fun i x hx => ?_, ?_⟩
    · simp only at hx hg ht
      rw [show h ++ [Event.read before.length v, .ret before.length (m v)]
        = (h ++ [.read before.length v]) ++ [.ret before.length (m v)] by simp, lastCall_snoc]
      simp only [lcStep, hl]
      rcases get_set before after (.load v) _ i x hx with ⟨rfl, rfl⟩ | ⟨hne, hx'⟩
      · trivial
      · exact ht i x hx'
    · intro p q i r heq
      rw [show h ++ [Event.read before.length v, .ret before.length (m v)]
        = (h ++ [.read before.length v]) ++ [.ret before.length (m v)] by simp] at heq
      rcases snoc_split _ _ _ _ _ heq with ⟨_, h2, h3⟩ | ⟨q', _, h2⟩
      · simp only [Event.ret.injEq] at h3
        obtain ⟨rfl, rfl⟩ := h3
        refine ⟨k, nli, by rw [← h2, hl]; exact a, ?_⟩
        simp only at c hg
        cases hm : m v with
        | none => exact absurd hm c
        | some t =>
          have := hg.right v t hm
          rw [b, final_var] at this
          exact this.symm
      · exact rets_snoc (by intros; simp) hr p q' i r h2

theorem inv_exec {m : Var → Option Table} (g : Good m) {n : Nat} {h : List Event} {s : State} (hx : Exec m n h s) : Inv h s := by
  induction hx with
  | start =>
    refine ⟨g, fun i x hi => ?_, ?_⟩
    · simp only [List.getElem?_replicate] at hi
      split at hi
      · cases hi; trivial
      · cases hi
    · intro p q i r heq
      cases p <;> cases heq
  | step _ hs ih => exact inv_step ih hs

end Verif.Proofs.Lazy
