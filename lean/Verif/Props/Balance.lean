import Verif.Props.Collector2
import Verif.Proofs.CollMany

/-! C50: when everything has been returned. -/

namespace Verif.Props

open Verif.Model Verif.Model.Collector Verif.Spec Verif.Proofs Verif.Proofs.Coll
open Verif.Spec.Reassembly (Parts)

/-- The numbers of the calls of which the TPDUs are in a result. -/
def idsOf : Output → List Nat
  | .returned d _ => d.map (fun q => match q with | some ptr => ptr.id | none => 0)
  | _ => []

theorem returned_some (timeout handler : Bool) (es : List Event) (hes : ∀ e ∈ es, FineEvent e) (s : State) (os : List Output)
    (h : run (New timeout handler) es = .ok (s, os)) {d : List (Option Ptr)} {err : Option Err} (ho : .returned d err ∈ os) :
    ∀ q ∈ d, ∃ ptr, q = some ptr ∧ ptr.id < (collected es).length := by
  intro q hq
  obtain ⟨c, hc⟩ := List.mem_iff_getElem?.1 (show (d, err) ∈ replies os from List.mem_filterMap.2 ⟨_, ho, rfl⟩)
  rcases (C49_complete timeout handler _ hes s os h c d err hc (List.ne_nil_of_mem hq)).2 with ⟨pdu, h1, _, rfl⟩ | ⟨m, hl, hall, _⟩
  · rw [List.mem_singleton] at hq
    exact ⟨_, hq, get_lt h1⟩
  · obtain ⟨j, hj⟩ := List.mem_iff_getElem?.1 hq
    obtain ⟨ptr, p1, _, p3, _⟩ := hall j (by rw [← hl]; exact get_lt hj)
    rw [hj] at p1; cases p1
    exact ⟨ptr, rfl, get_lt p3⟩

theorem ids_nodup (timeout handler : Bool) (es : List Event) (hes : ∀ e ∈ es, FineEvent e) (s : State) (os : List Output)
    (h : run (New timeout handler) es = .ok (s, os)) : (os.flatMap idsOf).Nodup := by
  have hh := hist_run hes h
  have slot : ∀ (i j c : Nat) o, os[i]? = some o → (idsOf o)[j]? = some c → At os s c (.returned i j) := by
    intro i j c o ho hj
    cases o with
    | returned d err =>
      have hj : (d.map _)[j]? = some c := hj
      rw [List.getElem?_map] at hj
      obtain ⟨q, hq, hqc⟩ := Option.map_eq_some_iff.1 hj
      obtain ⟨ptr, rfl, _⟩ := returned_some timeout handler es hes s os h (List.mem_of_getElem? ho) q (List.mem_of_getElem? hq)
      exact ⟨d, err, ptr, ho, hq, hqc⟩
    | silent => cases hj
    | handled d => cases hj
  unfold List.Nodup
  rw [List.pairwise_flatMap]
  constructor
  · intro o ho
    obtain ⟨i, hi⟩ := List.mem_iff_getElem?.1 ho
    rw [List.pairwise_iff_getElem]
    intro j k hj hk hjk he
    have h1 := slot i j _ o hi (List.getElem?_eq_getElem hj)
    have h2 := slot i k _ o hi (List.getElem?_eq_getElem hk)
    rw [← he] at h2
    have := at_uniq hh h1 h2
    cases this
    omega
  · rw [List.pairwise_iff_getElem]
    intro i k hi hk hik x hx y hy he
    subst he
    obtain ⟨j, hj⟩ := List.mem_iff_getElem?.1 hx
    obtain ⟨l, hl⟩ := List.mem_iff_getElem?.1 hy
    have h1 := slot i j _ _ (List.getElem?_eq_getElem hi) hj
    have h2 := slot k l _ _ (List.getElem?_eq_getElem hk) hl
    have := at_uniq hh h1 h2
    cases this
    omega

theorem ids_length (os : List Output) : (os.flatMap idsOf).length = ((returns os).map List.length).sum := by
  induction os with
  | nil => rfl
  | cons o os ih =>
    rw [List.flatMap_cons, List.length_append, ih, returns_cons, List.map_append, List.sum_append]
    congr 1
    cases o with
    | returned d err =>
      by_cases hd : d = []
      · subst hd; rfl
      · simp [idsOf, returns, hd, pdus]
    | silent => rfl
    | handled d => rfl

/-- C50, the balance: if as many TPDUs were returned as were given to `Collect`, every TPDU that was given is in
the result of exactly one call, no call failed, nothing was given to the expiry handler, and nothing is pending. -/
theorem C50_balance (timeout handler : Bool) (es : List Event) (hes : ∀ e ∈ es, FineEvent e) (s : State) (os : List Output)
    (h : run (New timeout handler) es = .ok (s, os)) (hall : (collected es).length ≤ ((returns os).map List.length).sum) :
    (∀ c, c < (collected es).length → ∃ i j, At os s c (.returned i j) ∧ ∀ pl, At os s c pl → pl = .returned i j) ∧
    (∀ d err, .returned d err ∈ os → err = none) ∧ (∀ d, .handled d ∉ os) ∧ Pipes s = [] := by
  have hh := hist_run hes h
  have hmem : ∀ c ∈ os.flatMap idsOf, c < (collected es).length ∧ ∃ i j, At os s c (.returned i j) := by
    intro c hc
    obtain ⟨o, ho, hco⟩ := List.mem_flatMap.1 hc
    cases o with
    | returned d err =>
      obtain ⟨q, hq, hqc⟩ := List.mem_map.1 hco
      obtain ⟨ptr, rfl, hlt⟩ := returned_some timeout handler es hes s os h ho q hq
      obtain ⟨i, hi⟩ := List.mem_iff_getElem?.1 ho
      obtain ⟨j, hj⟩ := List.mem_iff_getElem?.1 hq
      simp only at hqc
      exact ⟨by omega, i, j, d, err, ptr, hi, hj, hqc⟩
    | silent => cases hco
    | handled d => cases hco
  have hevery : ∀ c, c < (collected es).length → ∃ i j, At os s c (.returned i j) := by
    intro c hc
    by_cases hin : c ∈ os.flatMap idsOf
    · exact (hmem c hin).2
    · have h1 : (c :: os.flatMap idsOf).Nodup := List.nodup_cons.2 ⟨hin, ids_nodup timeout handler es hes s os h⟩
      have h2 := h1.length_le_of_subset (l₂ := List.range (collected es).length) (by
        intro x hx
        rcases List.mem_cons.1 hx with rfl | hx
        · exact List.mem_range.2 hc
        · exact List.mem_range.2 (hmem x hx).1)
      rw [List.length_cons, ids_length, List.length_range] at h2
      omega
  refine ⟨?_, ?_, ?_, ?_⟩
  · intro c hc
    obtain ⟨i, j, hij⟩ := hevery c hc
    exact ⟨i, j, hij, fun pl hpl => at_uniq hh hij hpl⟩
  · intro d err ho
    cases err with
    | none => rfl
    | some e =>
      obtain ⟨c, hc⟩ := List.mem_iff_getElem?.1 (show (d, some e) ∈ replies os from List.mem_filterMap.2 ⟨_, ho, rfl⟩)
      have hlt : c < (collected es).length := by
        have := get_lt hc
        rw [hh.ncalls, ← hh.calls] at this
        exact this
      obtain ⟨i, j, hij⟩ := hevery c hlt
      exact absurd hij (C50_rejected timeout handler es hes s os h c d e hc _)
  · intro d ho
    obtain ⟨i, hi⟩ := List.mem_iff_getElem?.1 ho
    obtain ⟨_, m, _, ⟨j, ptr, hj⟩, _, hp⟩ := C51_incomplete timeout handler es hes s os h i d hi
    obtain ⟨i', j', hij⟩ := hevery ptr.id (get_lt (hp j ptr hj).2)
    have := at_uniq hh hij (show At os s ptr.id (.handled i j) from ⟨d, ptr, hi, hj, rfl⟩)
    cases this
  · cases hp : Pipes s with
    | nil => rfl
    | cons kp l =>
      obtain ⟨k, p⟩ := kp
      have hl : (Pipes s).lookup k = some p := by rw [hp]; simp
      obtain ⟨pipe, hpp, hok, _⟩ := hh.inv.cur k p hl
      obtain ⟨j, ptr, hj⟩ := hok.nonempty
      have hat : At os s ptr.id (.pending k j) := ⟨p, ptr, hl, by rw [deref_of hpp]; exact hj, rfl⟩
      obtain ⟨d, hd⟩ := at_accepted hh hat
      obtain ⟨i', j', hij⟩ := hevery ptr.id (get_lt (hh.genuine p j ptr ⟨pipe, hpp, hj⟩).1)
      have := at_uniq hh hij hat
      cases this

/-- Beside C50_balance: a message of two segments in the wrong order and another of one. -/
example : let es := [.collect (exSeg 7 2 2), .collect exSingle, .collect (exSeg 7 2 1)]
    (run (New true true) es).map (fun r => ((collected es).length, ((returns r.2).map List.length).sum)) = .ok (3, 3) := by
  decide

end Verif.Props
