import Verif.Proofs.CollHist

/-! Prefixes of histories. -/

namespace Verif.Proofs.Coll
open Verif.Model Verif.Model.Collector Verif.Spec Verif.Proofs

theorem run_take : ∀ (es : List Event) {s s' : State} {os : List Output} (n : Nat), run s es = .ok (s', os) →
    ∃ s1, run s (es.take n) = .ok (s1, os.take n) := by
  intro es
  induction es with
  | nil => intro s s' os n h; cases h; exact ⟨s, by simp [run]⟩
  | cons e es ih =>
    intro s s' os n h
    cases n with
    | zero => exact ⟨s, rfl⟩
    | succ n =>
      unfold run at h
      obtain ⟨⟨s1, o⟩, h1, h⟩ := bind_eq_ok.1 h
      obtain ⟨⟨s2, os2⟩, h2, h⟩ := bind_eq_ok.1 h
      cases h
      obtain ⟨s3, h3⟩ := ih n h2
      refine ⟨s3, ?_⟩
      simp only [List.take_succ_cons]
      unfold run
      rw [h1]
      simp only [ok_bind]
      rw [h3]
      rfl

theorem replies_cons (o : Output) (os : List Output) : replies (o :: os) = replies [o] ++ replies os := by
  unfold replies
  rw [← List.filterMap_append]
  rfl

/-- The position of the reply to call `c`. -/
theorem replies_pos : ∀ (os : List Output) (c : Nat) (d : List (Option Ptr)) (e : Option Err), (replies os)[c]? = some (d, e) →
    ∃ i : Nat, os[i]? = some (.returned d e) ∧ (replies (os.take (i + 1))).length = c + 1 := by
  intro os
  induction os with
  | nil => intro c d e h; simp [replies] at h
  | cons o os ih =>
    intro c d e h
    rw [replies_cons] at h
    cases o with
    | silent =>
      obtain ⟨i, h1, h2⟩ := ih c d e h
      refine ⟨i + 1, h1, ?_⟩
      rw [List.take_succ_cons, replies_cons]
      exact h2
    | handled d' =>
      obtain ⟨i, h1, h2⟩ := ih c d e h
      refine ⟨i + 1, h1, ?_⟩
      rw [List.take_succ_cons, replies_cons]
      exact h2
    | returned d' e' =>
      cases c with
      | zero =>
        cases h
        exact ⟨0, rfl, rfl⟩
      | succ c =>
        obtain ⟨i, h1, h2⟩ := ih c d e h
        refine ⟨i + 1, h1, ?_⟩
        rw [List.take_succ_cons, replies_cons, List.length_append, h2]
        simp [replies]; omega

/-- Anything in the reply to call `c` was collected by then. -/
theorem reply_earlier {timeout handler : Bool} {es : List Event} (hes : ∀ e ∈ es, FineEvent e) {s : State} {os : List Output}
    (h : run (New timeout handler) es = .ok (s, os)) {c : Nat} {d : List (Option Ptr)} {err : Option Err}
    (hr : (replies os)[c]? = some (d, err)) {ptr : Ptr} (hp : some ptr ∈ d) : ptr.id ≤ c := by
  obtain ⟨i, h1, h2⟩ := replies_pos os c d err hr
  obtain ⟨s1, h3⟩ := run_take es (i + 1) h
  have hh := hist_run (fun e he => hes e (List.mem_of_mem_take he)) h3
  have hi : (os.take (i + 1))[i]? = some (.returned d err) := by
    rw [List.getElem?_take, if_pos (by omega)]; exact h1
  have hd : d ≠ [] := by rintro rfl; cases hp
  obtain ⟨_, hcase⟩ := hh.ret i d err hi hd
  have hlt : ptr.id < (collected (es.take (i + 1))).length := by
    rcases hcase with ⟨c', pdu, rfl, _, hcol, _⟩ | ⟨p, pipe, hpp, _, rfl⟩
    · simp only [List.mem_cons, Option.some.injEq, List.not_mem_nil, or_false] at hp
      subst hp
      exact get_lt hcol
    · obtain ⟨j, hj⟩ := mem_slot hp
      exact get_lt (hh.genuine p j ptr ⟨pipe, hpp, hj⟩).1
  have := hh.calls
  have := hh.ncalls
  omega

end Verif.Proofs.Coll
