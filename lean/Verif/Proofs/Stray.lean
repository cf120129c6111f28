import Verif.Proofs.CollSafe
import Verif.Spec.Anonymous
import Verif.Proofs.Keeps

/-! For C67: the Collector without timeouts, and the segments of unsupported types. -/

namespace Verif.Proofs.Coll
open Verif.Model Verif.Model.Collector Verif.Spec Verif.Proofs

/-- UCS-2 user data consists of whole characters. -/
def EvenUcs2 (t : TPDU) : Prop := t.Alphabet.1 = .ucs2 → t.UD.length % 2 = 0

theorem even_ud (t : TPDU) (src : Bytes) (h2 : t.UD = []) : Post (t.decodeUserData src) EvenUcs2 := by
  have mk0 : ∀ udh, EvenUcs2 { t with UDH := udh, UD := [] } := fun _ _ => rfl
  have mk0' : ∀ udh, EvenUcs2 { t with UDH := udh } := fun udh => by
    have := mk0 udh
    rwa [← h2] at this
  unfold TPDU.decodeUserData
  split
  · exact .fail
  refine Post.bind ?_; intro udl
  simp only
  split
  · exact .ok (mk0' t.UDH)
  split
  · exact .fail
  rename_i alphabet hal
  generalize (if alphabet = .a7Bit then udl.toNat else 0) = sml7
  generalize (if alphabet = .a7Bit then _ else udl.toNat) = n
  split
  · exact .fail
  split
  · exact .fail
  refine Post.bind ?_
  rintro ⟨udh, udhl⟩
  simp only
  split
  · exact .ok (mk0' udh)
  refine Post.bind ?_
  intro s
  split
  · rename_i h7
    refine Post.bind ?_
    intro sm
    refine .ok fun h => ?_
    have h : t.Alphabet.1 = .ucs2 := h
    rw [hal, h7] at h; cases h
  split
  · exact .fail
  rename_i ho
  refine .ok fun h => ?_
  have h : t.Alphabet.1 = .ucs2 := h
  rw [hal] at h
  simp only at h
  simp only [h, true_and] at ho
  show s.length % 2 = 0
  omega

theorem even_optionals (t : TPDU) (src : Bytes) (ri : Nat) (h : t.UD = []) : Post (t.unmarshalOptionals src ri) EvenUcs2 := by
  unfold TPDU.unmarshalOptionals
  refine Post.bind' (Q := fun x => x.1.UD = []) ?_ ?_
  · split
    · refine Post.bind ?_; intro _; exact .ok h
    · exact .ok h
  rintro ⟨t1, r1⟩ h1
  refine Post.bind' (Q := fun x => x.1.UD = []) ?_ ?_
  · split
    · refine Post.bind ?_; intro _; exact .ok h1
    · exact .ok h1
  rintro ⟨t2, r2⟩ h2
  simp only
  split
  · refine Post.bind ?_; intro _
    exact Post.wrapD (even_ud _ _ h2)
  · refine .ok fun _ => ?_
    have h2 : t2.UD = [] := h2
    rw [h2]; rfl

theorem unmarshal_even (d : Int) (src : Bytes) (t : TPDU) (h : Sms.Unmarshal src d = .ok t) : EvenUcs2 t := by
  have h : TPDU.UnmarshalBinary { Direction := d } src = .ok t := h
  cases src with
  | nil => cases h
  | cons fo body =>
    unfold TPDU.UnmarshalBinary at h
    rw [if_neg (by simp)] at h
    simp only [idx_zero_cons, ok_bind] at h
    obtain ⟨b, _, h⟩ := bind_eq_ok.1 h
    split at h
    · refine (Post.wrapD ?_ : Post (wrapD _ _ (TPDU.unmarshalDeliver _ _)) EvenUcs2) t h
      unfold TPDU.unmarshalDeliver
      repeat' (first | exact .wrapD (even_ud _ _ rfl) | (refine Post.bind ?_; intro _))
    split at h
    · refine (Post.wrapD ?_ : Post (wrapD _ _ (TPDU.unmarshalDeliverReport _ _)) EvenUcs2) t h
      unfold TPDU.unmarshalDeliverReport
      repeat' (first | exact even_optionals _ _ _ rfl | (refine Post.bind ?_; intro _))
    split at h
    · refine (Post.wrapD ?_ : Post (wrapD _ _ (TPDU.unmarshalSubmitReport _ _)) EvenUcs2) t h
      unfold TPDU.unmarshalSubmitReport
      refine Post.bind ?_; intro _
      refine Post.bind ?_; intro _
      simp only
      split
      · exact .fail
      repeat' (first | exact even_optionals _ _ _ rfl | (refine Post.bind ?_; intro _))
    split at h
    · refine (Post.wrapD ?_ : Post (wrapD _ _ (TPDU.unmarshalSubmit _ _)) EvenUcs2) t h
      unfold TPDU.unmarshalSubmit
      repeat' (first | exact .wrapD (even_ud _ _ rfl) | (refine Post.bind ?_; intro _))
    split at h
    · refine (Post.wrapD ?_ : Post (wrapD _ _ (TPDU.unmarshalStatusReport _ _)) EvenUcs2) t h
      unfold TPDU.unmarshalStatusReport
      refine Post.bind ?_; intro _
      refine Post.bind ?_; intro _
      refine Post.bind ?_; intro _
      simp only
      split
      · exact .fail
      refine Post.bind ?_; intro _
      refine Post.bind ?_; intro _
      split
      · exact .fail
      refine Post.bind ?_; intro _
      refine Post.bind ?_; intro _
      refine Post.bind ?_; intro _
      split
      · refine Post.bind ?_; intro _
        exact even_optionals _ _ _ rfl
      · exact .ok fun _ => rfl
    split at h
    · refine (Post.wrapD ?_ : Post (wrapD _ _ (TPDU.unmarshalCommand _ _)) EvenUcs2) t h
      unfold TPDU.unmarshalCommand
      repeat' (first | exact .wrapD (even_ud _ _ rfl) | (refine Post.bind ?_; intro _))
    · cases h

/-- A pending reassembly. -/
structure PipeFine (k : Bytes) (pipe : Pipe) : Prop where
  cleanup : pipe.cleanup = none
  frags : pipe.segments.countP Option.isSome = pipe.frags
  size : ∀ m, k = keyOf m → pipe.segments.length = m.count
  even : ∀ ptr, some ptr ∈ pipe.segments → EvenUcs2 ptr.pdu

/-- What the reassembly of the unsupported TPDUs holds. -/
structure Holds (pipe : Pipe) (l : Nat) (got : List Nat) : Prop where
  len : pipe.segments.length = l
  num : got.length = pipe.frags
  free : ∀ j < l, pipe.segments[j]? = some none ↔ j + 1 ∉ got

/-- The state without timeouts; `w` says what is kept of the segments of unsupported types. -/
structure Untimed (s : State) (w : Stray) : Prop where
  closed : s.closed = false
  timeout : s.timeout = false
  pipes : ∀ k p, s.pipes.lookup k = some p → ∃ pipe, s.heap[p]? = some pipe ∧ PipeFine k pipe
  inj : ∀ k k' p, s.pipes.lookup k = some p → s.pipes.lookup k' = some p → k = k'
  anon : match w with
    | none => s.pipes.lookup [] = none
    | some (l, got) => ∃ p pipe, s.pipes.lookup [] = some p ∧ s.heap[p]? = some pipe ∧ Holds pipe l got

theorem good_new : Untimed (New false false) none :=
  ⟨rfl, rfl, fun k p h => by simp [New] at h, fun k k' p h => by simp [New] at h, rfl⟩

theorem good_calls {s : State} {w : Stray} (h : Untimed s w) (c : Nat) : Untimed { s with calls := c } w :=
  ⟨h.closed, h.timeout, h.pipes, h.inj, h.anon⟩

theorem countP_set_some {α : Type} (x : α) : ∀ (l : List (Option α)) (j : Nat), l[j]? = some none →
    (l.set j (some x)).countP Option.isSome = l.countP Option.isSome + 1 := by
  intro l
  induction l with
  | nil => intro j h; simp at h
  | cons a l ih =>
    intro j h
    cases j with
    | zero =>
      simp only [List.getElem?_cons_zero, Option.some.injEq] at h
      subst h
      simp
    | succ j =>
      simp only [List.getElem?_cons_succ] at h
      rw [List.set_cons_succ, List.countP_cons, List.countP_cons, ih j h]
      omega

theorem all_of_countP {α : Type} : ∀ (l : List (Option α)), l.countP Option.isSome = l.length → ∀ x ∈ l, x ≠ none := by
  intro l h x hx e
  have := List.countP_eq_length.1 h x hx
  rw [e] at this; cases this

theorem hole_of_countP {α : Type} : ∀ (l : List (Option α)), l.countP Option.isSome ≠ l.length → none ∈ l := by
  intro l h
  refine Classical.byContradiction fun hn => h (List.countP_eq_length.2 ?_)
  intro x hx
  cases x with
  | none => exact absurd hx hn
  | some _ => rfl

/-- What the call leaves in the place for the segments of unsupported types. -/
def after (key : Bytes) (seq n frags : Nat) (w : Stray) : Stray :=
  if key = [] then (if frags + 1 = n then none else w.map fun x => (x.1, seq :: x.2)) else w

theorem place_good {s : State} {w : Stray} {key : Bytes} {p seq n : Nat} {pipe : Pipe} (ptr : Ptr) (ke : Option Err)
    (hg : Untimed s w) (hk : s.pipes.lookup key = some p) (hp : s.heap[p]? = some pipe)
    (hq : pipe.segments[seq - 1]? = some none) (h1 : 1 ≤ seq) (he : EvenUcs2 ptr.pdu) :
    ∃ s', place s ptr key ke n seq p = .ok (s', if pipe.frags + 1 = n then
        .returned (pipe.segments.set (seq - 1) (some ptr)) none else .returned [] ke) ∧
      Untimed s' (after key seq n pipe.frags w) := by
  obtain ⟨pipe', hp', hpg⟩ := hg.pipes key p hk
  rw [hp] at hp'; cases hp'
  have hpg' : ∀ c, c = none → PipeFine key ⟨c, pipe.segments.set (seq - 1) (some ptr), pipe.frags + 1⟩ := by
    intro c hc
    refine ⟨hc, ?_, ?_, ?_⟩
    · show (pipe.segments.set (seq - 1) (some ptr)).countP Option.isSome = pipe.frags + 1
      rw [countP_set_some _ _ _ hq, hpg.frags]
    · intro m hm
      simpa using hpg.size m hm
    · intro x hx
      rcases List.mem_or_eq_of_mem_set hx with h | h
      · exact hpg.even x h
      · cases h; exact he
  have hpg' := hpg' pipe.cleanup hpg.cleanup
  have heap' : ∀ k q, s.pipes.lookup k = some q →
      ∃ pp, (s.heap.set p ⟨pipe.cleanup, pipe.segments.set (seq - 1) (some ptr), pipe.frags + 1⟩)[q]? = some pp ∧ PipeFine k pp := by
    intro k q hkq
    by_cases e : p = q
    · subst e
      have := hg.inj _ _ _ hk hkq
      subst this
      exact ⟨_, get_set.2 (.inl ⟨rfl, get_lt hp, rfl⟩), hpg'⟩
    · obtain ⟨pp, g1, g2⟩ := hg.pipes k q hkq
      exact ⟨pp, get_set.2 (.inr ⟨e, g1⟩), g2⟩
  have other : key ≠ [] → ∀ q pp, s.pipes.lookup [] = some q → s.heap[q]? = some pp →
      (s.heap.set p ⟨pipe.cleanup, pipe.segments.set (seq - 1) (some ptr), pipe.frags + 1⟩)[q]? = some pp := by
    intro hne q pp hq1 hq2
    refine get_set.2 (.inr ⟨?_, hq2⟩)
    intro e
    subst e
    exact hne (hg.inj _ _ _ hk hq1)
  unfold place
  rw [idx_some hp]
  simp only [ok_bind]
  rw [if_pos (get_lt hq)]
  simp only [pure_ok]
  by_cases hf : pipe.frags + 1 = n
  · rw [if_pos hf, if_pos hf]
    refine ⟨_, rfl, hg.closed, hg.timeout, ?_, ?_, ?_⟩
    · intro k q hkq
      simp only at hkq ⊢
      rw [lookup_delete] at hkq
      split at hkq
      · cases hkq
      · exact heap' k q hkq
    · intro k k' q h h'
      simp only at h h'
      rw [lookup_delete] at h h'
      split at h
      · cases h
      split at h'
      · cases h'
      exact hg.inj _ _ _ h h'
    · unfold after
      by_cases hke : key = []
      · rw [if_pos hke, if_pos hf]
        subst hke
        simp only
        rw [lookup_delete, if_pos rfl]
      · rw [if_neg hke]
        have ha := hg.anon
        have hl : (mapDelete s.pipes key).lookup [] = s.pipes.lookup [] := by
          rw [lookup_delete, if_neg (fun e => hke (by first | exact e | exact e.symm))]
        cases w with
        | none => simp only at ha ⊢; rw [hl]; exact ha
        | some x =>
          obtain ⟨q, pp, g1, g2, g3⟩ := ha
          exact ⟨q, pp, by rw [hl]; exact g1, other hke q pp g1 g2, g3⟩
  · rw [if_neg hf, if_neg hf, if_neg (by rw [hg.timeout]; simp)]
    refine ⟨_, rfl, hg.closed, hg.timeout, heap', hg.inj, ?_⟩
    unfold after
    by_cases hke : key = []
    · rw [if_pos hke, if_neg hf]
      subst hke
      have ha := hg.anon
      cases w with
      | none => simp only at ha; rw [hk] at ha; cases ha
      | some x =>
        obtain ⟨l, got⟩ := x
        obtain ⟨q, pp, g1, g2, g3⟩ := ha
        rw [hk] at g1; cases g1
        rw [hp] at g2; cases g2
        refine ⟨p, _, hk, get_set.2 (.inl ⟨rfl, get_lt hp, rfl⟩), ?_, ?_, ?_⟩
        · simpa using g3.len
        · simpa using g3.num
        · intro j hj
          have hf := g3.free j hj
          simp only [List.mem_cons, not_or]
          by_cases e : seq - 1 = j
          · have e' : j + 1 = seq := by omega
            subst e
            rw [List.getElem?_set_self (get_lt hq)]
            simp [e']
          · rw [List.getElem?_set_ne e, hf]
            constructor
            · intro h; exact ⟨by omega, h⟩
            · intro h; exact h.2
    · rw [if_neg hke]
      have ha := hg.anon
      cases w with
      | none => exact ha
      | some x =>
        obtain ⟨q, pp, g1, g2, g3⟩ := ha
        exact ⟨q, pp, g1, other hke q pp g1 g2, g3⟩

theorem new_good {s : State} {w : Stray} {key : Bytes} {n : Nat} (hg : Untimed s w) (hk : s.pipes.lookup key = none)
    (hn : ∀ m, key = keyOf m → n = m.count) :
    Untimed { s with pipes := mapSet s.pipes key s.heap.length, heap := s.heap ++ [⟨none, List.replicate n none, 0⟩] }
      (if key = [] then some (n, []) else w) := by
  have old : ∀ k q, s.pipes.lookup k = some q → q ≠ s.heap.length := by
    intro k q h e
    obtain ⟨pp, g1, _⟩ := hg.pipes k q h
    have := get_lt g1
    omega
  refine ⟨hg.closed, hg.timeout, ?_, ?_, ?_⟩
  · intro k q h
    simp only at h ⊢
    rw [lookup_set] at h
    split at h
    · rename_i e
      cases h
      subst e
      refine ⟨_, get_snoc.2 (.inl ⟨rfl, rfl⟩), rfl, ?_, ?_, ?_⟩
      · simp [List.countP_replicate]
      · intro m hm; simpa using hn m hm
      · intro ptr hptr; simp at hptr
    · obtain ⟨pp, g1, g2⟩ := hg.pipes k q h
      exact ⟨pp, get_snoc.2 (.inr g1), g2⟩
  · intro k k' q h h'
    simp only at h h'
    rw [lookup_set] at h h'
    split at h <;> split at h'
    · rename_i e e'; rw [e, e']
    · cases h; exact absurd rfl (old _ _ h')
    · cases h'; exact absurd rfl (old _ _ h)
    · exact hg.inj _ _ _ h h'
  · by_cases hke : key = []
    · rw [if_pos hke]
      subst hke
      refine ⟨s.heap.length, _, ?_, get_snoc.2 (.inl ⟨rfl, rfl⟩), ?_, rfl, ?_⟩
      · simp only; rw [lookup_set, if_pos rfl]
      · simp
      · intro j hj
        simp [hj]
    · rw [if_neg hke]
      have ha := hg.anon
      have hl : (mapSet s.pipes key s.heap.length).lookup [] = s.pipes.lookup [] := by
        rw [lookup_set, if_neg (fun e => hke (by first | exact e | exact e.symm))]
      cases w with
      | none => simp only at ha ⊢; rw [hl]; exact ha
      | some x =>
        obtain ⟨q, pp, g1, g2, g3⟩ := ha
        exact ⟨q, pp, by rw [hl]; exact g1, get_snoc.2 (.inr g2), g3⟩


/-- The segment is not one of an unsupported type: the call returns, and nothing it returns is missing. -/
theorem collect_none {s : State} {w : Stray} (hg : Untimed s w) (t : TPDU) (he : EvenUcs2 t) (hp : strayPart t = none) :
    ∃ s' d err, Collect s t = .ok (s', .returned d err) ∧ (∀ x ∈ d, x ≠ none) ∧ Untimed s' w := by
  have hc := good_calls hg (s.calls + 1)
  unfold Collect
  simp only
  rw [if_neg (by rw [hg.closed]; simp)]
  cases hci : t.ConcatInfo with
  | none => exact ⟨_, _, _, rfl, by simp, hc⟩
  | some c =>
    simp only
    by_cases h2 : c.segments < 2
    · rw [if_pos h2]; exact ⟨_, _, _, rfl, by simp, hc⟩
    rw [if_neg h2]
    by_cases h3 : c.seqno < 1 ∨ c.seqno > c.segments
    · rw [if_pos h3]; exact ⟨_, _, _, rfl, by simp, hc⟩
    rw [if_neg h3]
    have hs : Supported t := by
      unfold strayPart at hp
      split at hp
      · assumption
      · rw [hci] at hp
        simp only at hp
        rw [if_pos ⟨by omega, by omega, by omega⟩] at hp
        cases hp
    have hkey : (pduKey t c.segments c.mref).1 = keyOf ⟨t.SmsType, peer t, c.mref, c.segments⟩ := by
      rw [Key.pduKey_supported _ _ _ hs]; rfl
    have hkc : ∀ m, (pduKey t c.segments c.mref).1 = keyOf m → c.segments = m.count := fun m => key_count
    have hne : (pduKey t c.segments c.mref).1 ≠ [] := by
      rw [hkey]
      intro h
      have := congrArg List.length h
      simp [keyOf, formatKey] at this
    generalize pduKey t c.segments c.mref = kk at *
    obtain ⟨key, ke⟩ := kk
    simp only at hkey hkc hne ⊢
    -- what is returned is complete
    have fin : ∀ (s1 : State) (p : Nat) (pipe : Pipe), Untimed s1 w → s1.pipes.lookup key = some p → s1.heap[p]? = some pipe →
        pipe.segments[c.seqno - 1]? = some none →
        ∃ s' d err, place s1 ⟨s.calls, t⟩ key ke c.segments c.seqno p = .ok (s', .returned d err) ∧ (∀ x ∈ d, x ≠ none) ∧ Untimed s' w := by
      intro s1 p pipe g1 hl hh hq
      obtain ⟨s', h1, h2⟩ := place_good (n := c.segments) ⟨s.calls, t⟩ ke g1 hl hh hq (by omega) he
      unfold after at h2
      rw [if_neg hne] at h2
      obtain ⟨pipe', e1, e2⟩ := g1.pipes key p hl
      rw [hh] at e1; cases e1
      rw [h1]
      split
      · rename_i hf
        refine ⟨_, _, _, rfl, ?_, h2⟩
        apply all_of_countP
        rw [countP_set_some _ _ _ hq, e2.frags, hf, List.length_set, e2.size _ hkey]
      · exact ⟨_, _, _, rfl, by simp, h2⟩
    cases hl : s.pipes.lookup key with
    | none =>
      simp only
      unfold placeNew
      have g := new_good hc hl hkc
      rw [if_neg hne] at g
      refine fin _ _ _ g ?_ (get_snoc.2 (.inl ⟨rfl, rfl⟩)) ?_
      · simp only; rw [lookup_set, if_pos rfl]
      · simp only [List.getElem?_replicate]
        rw [if_pos (by omega)]
    | some p =>
      simp only
      obtain ⟨pipe, hp, hpg⟩ := hg.pipes key p hl
      rw [idx_some hp]
      simp only [ok_bind]
      have hlen := hpg.size _ hkey
      have hlt : c.seqno - 1 < pipe.segments.length := by
        rw [hlen]; show c.seqno - 1 < c.segments; omega
      have hj : pipe.segments[c.seqno - 1]? = some pipe.segments[c.seqno - 1] := List.getElem?_eq_getElem hlt
      rw [idx_some hj]
      simp only [ok_bind]
      split
      · exact ⟨_, _, _, rfl, by simp, hc⟩
      · rename_i hcur
        rw [hpg.cleanup]
        refine fin _ _ _ hc hl hp ?_
        rw [hj]
        cases hv : pipe.segments[c.seqno - 1] with
        | none => rfl
        | some _ => rw [hv] at hcur; simp at hcur

theorem strayPart_some {t : TPDU} {n seq : Nat} (h : strayPart t = some (n, seq)) :
    ∃ ref, t.ConcatInfo = some ⟨n, seq, ref⟩ ∧ 2 ≤ n ∧ 1 ≤ seq ∧ seq ≤ n ∧ ∃ ke, pduKey t n ref = ([], ke) := by
  unfold strayPart at h
  split at h
  · cases h
  rename_i hs
  split at h
  · cases h
  rename_i c hc
  split at h
  · rename_i h3
    cases h
    refine ⟨c.mref, hc, h3.1, h3.2.1, h3.2.2, some (.unsupportedSmsType t.SmsType), ?_⟩
    unfold pduKey
    simp only
    rw [if_neg (fun e => hs (.inl e)), if_neg (fun e => hs (.inr e))]
  · cases h

/-- The first of the segments of unsupported types is kept. -/
theorem collect_first {s : State} (hg : Untimed s none) (t : TPDU) (he : EvenUcs2 t) {n seq : Nat} (hp : strayPart t = some (n, seq)) :
    ∃ s' err, Collect s t = .ok (s', .returned [] err) ∧ Untimed s' (some (n, [seq])) := by
  obtain ⟨ref, hci, h1, h2, h3, ke, hk⟩ := strayPart_some hp
  have hc := good_calls hg (s.calls + 1)
  unfold Collect
  simp only
  rw [if_neg (by rw [hg.closed]; simp), hci]
  simp only
  rw [if_neg (by omega), if_neg (by omega), hk]
  have hl : s.pipes.lookup [] = none := hg.anon
  simp only
  rw [hl]
  simp only
  unfold placeNew
  have g := new_good (n := n) hc hl (fun m hm => by
    have := congrArg List.length hm
    simp [keyOf, formatKey] at this)
  rw [if_pos rfl] at g
  obtain ⟨s', h4, h5⟩ := place_good (n := n) (seq := seq) (pipe := ⟨none, List.replicate n none, 0⟩) ⟨s.calls, t⟩ ke g
    (by simp only; rw [lookup_set, if_pos rfl]) (get_snoc.2 (.inl ⟨rfl, rfl⟩))
    (by simp only [List.getElem?_replicate]; rw [if_pos (by omega)]) (by omega) he
  refine ⟨s', ke, ?_, ?_⟩
  · rw [h4, if_neg (by simp only; omega)]
  · unfold after at h5
    rw [if_pos rfl, if_neg (by simp only; omega)] at h5
    exact h5

/-- What the later ones do. -/
theorem collect_later {s : State} {l : Nat} {got : List Nat} (hg : Untimed s (some (l, got))) (t : TPDU) (he : EvenUcs2 t)
    {n seq : Nat} (hp : strayPart t = some (n, seq)) :
    (l < seq → Collect s t = .error (.panic .index)) ∧
    (¬ l < seq → seq ∈ got → ∃ s' err, Collect s t = .ok (s', .returned [] err) ∧ Untimed s' (some (l, got))) ∧
    (¬ l < seq → seq ∉ got → got.length + 1 ≠ n →
      ∃ s' err, Collect s t = .ok (s', .returned [] err) ∧ Untimed s' (some (l, seq :: got))) ∧
    (¬ l < seq → seq ∉ got → got.length + 1 = n →
      ∃ s' d, Collect s t = .ok (s', .returned d none) ∧ Untimed s' none ∧ (n = l → ∀ x ∈ d, x ≠ none) ∧
        (n ≠ l → none ∈ d ∧ ∀ ptr, some ptr ∈ d → EvenUcs2 ptr.pdu)) := by
  obtain ⟨ref, hci, h1, h2, h3, ke, hk⟩ := strayPart_some hp
  have hc := good_calls hg (s.calls + 1)
  obtain ⟨p, pipe, hl, hh, hold⟩ := hg.anon
  obtain ⟨pipe', e1, hpg⟩ := hg.pipes _ _ hl
  rw [hh] at e1; cases e1
  have hC : Collect s t = (idx pipe.segments ((seq - 1 : Nat) : Int) >>= fun cur =>
      if cur.isSome then .ok ({ s with calls := s.calls + 1 }, .returned [] (some .duplicateSegment))
      else place { s with calls := s.calls + 1 } ⟨s.calls, t⟩ [] ke n seq p) := by
    unfold Collect
    simp only
    rw [if_neg (by rw [hg.closed]; simp), hci]
    simp only
    rw [if_neg (by omega), if_neg (by omega), hk]
    simp only
    rw [hl]
    simp only
    rw [idx_some hh]
    simp only [ok_bind, hpg.cleanup]
    rfl
  rw [hC]
  have hlen := hold.len
  have inr : ¬ l < seq → ∃ v, pipe.segments[seq - 1]? = some v ∧ (v = none ↔ seq ∉ got) := by
    intro h
    have hj : pipe.segments[seq - 1]? = some (pipe.segments[seq - 1]'(by omega)) := List.getElem?_eq_getElem (by omega)
    refine ⟨_, hj, ?_⟩
    have := hold.free (seq - 1) (by omega)
    rw [hj, Nat.sub_add_cancel h2] at this
    rw [← this]
    simp
  have pg : ¬ l < seq → seq ∉ got → pipe.segments[seq - 1]? = some none := by
    intro h h'
    obtain ⟨v, hv, hvv⟩ := inr h
    rw [hv, hvv.2 h']
  refine ⟨?_, ?_, ?_, ?_⟩
  · intro h
    have : idx pipe.segments ((seq - 1 : Nat) : Int) = .error (.panic .index) := by
      unfold idx
      rw [if_pos (by omega), Int.toNat_natCast, List.getElem?_eq_none (by omega)]
      rfl
    rw [this]
    rfl
  · intro h h'
    obtain ⟨v, hv, hvv⟩ := inr h
    rw [idx_some hv]
    simp only [ok_bind]
    cases v with
    | none => exact absurd h' (hvv.1 rfl)
    | some x => exact ⟨_, _, rfl, hc⟩
  · intro h h' hn
    have hq := pg h h'
    rw [idx_some hq]
    simp only [ok_bind]
    obtain ⟨s', h4, h5⟩ := place_good (n := n) ⟨s.calls, t⟩ ke hc hl hh hq (by omega) he
    have hfn : ¬ pipe.frags + 1 = n := by rw [← hold.num]; exact hn
    refine ⟨s', ke, ?_, ?_⟩
    · rw [if_neg (by simp), h4, if_neg hfn]
    · unfold after at h5
      rw [if_pos rfl, if_neg hfn] at h5
      exact h5
  · intro h h' hn
    have hq := pg h h'
    rw [idx_some hq]
    simp only [ok_bind]
    obtain ⟨s', h4, h5⟩ := place_good (n := n) ⟨s.calls, t⟩ ke hc hl hh hq (by omega) he
    have hfn : pipe.frags + 1 = n := by rw [← hold.num]; exact hn
    have hcount : (pipe.segments.set (seq - 1) (some ⟨s.calls, t⟩)).countP Option.isSome = n := by
      rw [countP_set_some _ _ _ hq, hpg.frags, hfn]
    have hlen' : (pipe.segments.set (seq - 1) (some (⟨s.calls, t⟩ : Ptr))).length = l := by
      rw [List.length_set, hlen]
    refine ⟨s', pipe.segments.set (seq - 1) (some ⟨s.calls, t⟩), ?_, ?_, ?_, ?_⟩
    · rw [if_neg (by simp), h4, if_pos hfn]
    · unfold after at h5
      rw [if_pos rfl, if_pos hfn] at h5
      exact h5
    · intro e
      exact all_of_countP _ (by rw [hcount, hlen', e])
    · intro e
      refine ⟨hole_of_countP _ (by rw [hcount, hlen']; exact e), ?_⟩
      intro x hx
      rcases List.mem_or_eq_of_mem_set hx with h | h
      · exact hpg.even x h
      · cases h; exact he

end Verif.Proofs.Coll
