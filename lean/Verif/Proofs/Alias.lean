import Verif.Spec.Memory
import Verif.Proofs.Ucs2
import Verif.Proofs.Basic
import Verif.Proofs.Gsm7

/-! Helper lemmas for slices in memory. -/

namespace Verif.Proofs.Alias
open Verif.Model Verif.Model.Alias Verif.Spec Verif.Proofs

variable {α : Type}

theorem read_length (m : Mem α) (s : Slice) : (m.read s).length = s.len := by simp [Mem.read]

theorem read_get (m : Mem α) (s : Slice) (i : Nat) : (m.read s)[i]? = if i < s.len then some (m.get s.arr (s.off + i)) else none := by
  unfold Mem.read
  rw [List.getElem?_map]
  by_cases h : i < s.len
  · rw [if_pos h, List.getElem?_range h]; rfl
  · rw [if_neg h, List.getElem?_eq_none (by simp; omega)]; rfl

theorem read_congr {m m' : Mem α} {s : Slice} (h : ∀ a p, Used s a p → m'.get a p = m.get a p) : m'.read s = m.read s := by
  apply List.ext_getElem?
  intro i
  rw [read_get, read_get]
  by_cases hi : i < s.len
  · rw [if_pos hi, if_pos hi, h _ _ ⟨rfl, by omega, by omega⟩]
  · rw [if_neg hi, if_neg hi]

theorem write_get (m : Mem α) (arr pos : Nat) (xs : List α) (a p : Nat) (h : ¬ (a = arr ∧ pos ≤ p ∧ p < pos + xs.length)) :
    (m.write arr pos xs).get a p = m.get a p := by
  unfold Mem.write
  simp only
  split
  · rename_i hh
    rw [List.getElem?_eq_none (by have := hh.1; have := hh.2; omega)]
  · rfl

theorem write_get_in (m : Mem α) (arr pos : Nat) (xs : List α) (i : Nat) (x : α) (h : xs[i]? = some x) :
    (m.write arr pos xs).get arr (pos + i) = x := by
  unfold Mem.write
  simp only
  rw [if_pos ⟨trivial, by omega⟩, show pos + i - pos = i by omega, h]

/-- What `append` does. -/
theorem append_spec (grow : Nat → Nat) (m : Mem α) (s : Slice) (xs : List α) (hv : Allocated m s)
    {m' : Mem α} {u : Slice} (h : m.append grow s xs = (m', u)) :
    m'.read u = m.read s ++ xs ∧ (∀ a p, a < m.next → ¬ Spare s a p → m'.get a p = m.get a p) ∧ m.next ≤ m'.next ∧
      Allocated m' u ∧ u.len = s.len + xs.length ∧
      ((u.arr = s.arr ∧ u.off = s.off ∧ u.cap = s.cap ∧ s.len + xs.length ≤ s.cap ∧ m'.next = m.next) ∨
        (u.arr = m.next ∧ u.off = 0 ∧ m'.next = m.next + 1 ∧ s.cap < s.len + xs.length)) := by
  unfold Mem.append at h
  simp only at h
  split at h
  · rename_i hc
    cases h
    refine ⟨?_, ?_, Nat.le_refl _, ⟨hv.1, hc⟩, rfl, .inl ⟨rfl, rfl, rfl, hc, rfl⟩⟩
    · apply List.ext_getElem?
      intro i
      rw [read_get]
      simp only
      by_cases h1 : i < s.len
      · rw [if_pos (by omega), List.getElem?_append_left (by rw [read_length]; exact h1), read_get, if_pos h1, write_get]
        omega
      · rw [List.getElem?_append_right (by rw [read_length]; omega), read_length]
        by_cases h2 : i < s.len + xs.length
        · have hx : xs[i - s.len]? = some (xs[i - s.len]'(by omega)) := List.getElem?_eq_getElem (by omega)
          rw [if_pos h2, hx, show s.off + i = s.off + s.len + (i - s.len) by omega, write_get_in _ _ _ _ _ _ hx]
        · rw [if_neg h2, List.getElem?_eq_none (by omega)]
    · intro a p ha hs
      apply write_get
      intro hh
      exact hs ⟨hh.1, by omega, by omega⟩
  · rename_i hc
    cases h
    have hl : (m.read s ++ xs).length = s.len + xs.length := by simp [read_length]
    refine ⟨?_, ?_, Nat.le_succ _, ⟨Nat.lt_succ_self _, Nat.le_add_right _ _⟩, rfl, .inr ⟨rfl, rfl, rfl, by omega⟩⟩
    · apply List.ext_getElem?
      intro i
      rw [read_get]
      simp only
      by_cases h1 : i < s.len + xs.length
      · have hx : (m.read s ++ xs)[i]? = some ((m.read s ++ xs)[i]'(by omega)) := List.getElem?_eq_getElem (by omega)
        rw [if_pos h1, write_get_in _ _ _ _ _ _ hx, hx]
      · rw [if_neg h1, List.getElem?_eq_none (by omega)]
    · intro a p ha hs
      apply write_get
      omega

theorem gsm7_loop_error (d : Gsm7.Decoder) (src : Bytes) : ∀ b f, d.loop src b = .error f → ∃ g, f = .err (.gsm7InvalidSeptet g) := by
  have bd : ∀ {x : M Bytes} {k : Bytes → Bytes} {f : Fault}, (do let r ← x; return k r) = .error f → x = .error f := by
    intro x k f h
    cases x with
    | ok r => cases h
    | error g => exact h
  induction src with
  | nil => intro b f h; cases h
  | cons g src ih =>
    intro b f h
    cases b with
    | true =>
      unfold Gsm7.Decoder.loop at h
      split at h
      · exact ih _ _ (bd h)
      · split at h
        · exact ih _ _ (bd h)
        · split at h
          · cases h; exact ⟨_, rfl⟩
          · split at h <;> exact ih _ _ (bd h)
    | false =>
      unfold Gsm7.Decoder.loop at h
      split at h
      · exact ih _ _ h
      · split at h
        · exact ih _ _ (bd h)
        · split at h
          · cases h; exact ⟨_, rfl⟩
          · exact ih _ _ (bd h)

theorem gsm7_no_dangling (src : Bytes) (o : List Gsm7.Option') (e : Bytes) : Gsm7.Decode src o ≠ .error (.err (.ucs2Dangling e)) := by
  intro h
  unfold Gsm7.Decode at h
  rw [decoder_decode_eq] at h
  obtain ⟨g, hg⟩ := gsm7_loop_error _ _ _ _ h
  cases hg

/-- The dangling surrogate is what the data decoded ends with. -/
theorem dangling_tail (ud : Bytes) (udh : UDH) (a : Alphabet) (opts : List CharsetOpt) (e : Bytes)
    (h : (DecodeUserData ud udh a opts).err = some (.ucs2Dangling e)) : a = .ucs2 ∧ e ≠ [] ∧ ∃ pre, ud = pre ++ e := by
  have gsm : ∀ o, (match Gsm7.Decode ud o with
      | .ok t => (⟨t, none⟩ : DecodeUD)
      | .error (.err e) => ⟨[], some e⟩
      | .error (.panic _) => ⟨[], none⟩).err ≠ some (.ucs2Dangling e) := by
    intro o
    rcases h' : Gsm7.Decode ud o with f | t
    · cases f with
      | err x =>
        simp only [ne_eq, Option.some.injEq]
        rintro rfl
        exact absurd h' (gsm7_no_dangling _ _ _)
      | panic k => simp
    · simp
  cases a with
  | ucs2 =>
    refine ⟨rfl, ?_⟩
    unfold DecodeUserData at h
    simp only at h
    by_cases he : ud.length % 2 = 0
    · obtain ⟨pre, x, y, e1, _, _, e2⟩ := (decode_err_iff ud (Ucs2.Decode ud).runes (.ucs2Dangling e) he).1 (by rw [← h])
      cases e2
      exact ⟨by simp, pre, e1⟩
    · unfold Ucs2.Decode at h
      rw [if_neg (by omega), if_pos (by omega)] at h
      cases h
  | a8Bit => cases h
  | a7Bit => exact absurd h (gsm _)
  | reserved => exact absurd h (gsm _)

/-- The octets waiting for the next segment. -/
def pendingOf (m : Mem UInt8) : Option Slice → Bytes
  | none => []
  | some d => m.read d

/-- The last elements of a slice. -/
def tailOf (u : Slice) (ri : Nat) : Slice := ⟨u.arr, u.off + ri, u.len - ri, u.cap - ri⟩

theorem tail_spare {u : Slice} {ri : Nat} (h : ri ≤ u.len) (hc : u.len ≤ u.cap) (a p : Nat) : Spare (tailOf u ri) a p ↔ Spare u a p := by
  unfold Spare tailOf
  simp only
  omega

theorem tail_used {u : Slice} {ri : Nat} (h : ri ≤ u.len) (a p : Nat) (hu : Used (tailOf u ri) a p) : Used u a p := by
  unfold Used tailOf at *
  simp only at *
  omega

theorem tail_read (m : Mem UInt8) (u : Slice) (pre e : Bytes) (h : m.read u = pre ++ e) :
    m.read (tailOf u (u.len - e.length)) = e := by
  have hl : u.len = pre.length + e.length := by
    have := read_length m u
    rw [h, List.length_append] at this
    omega
  apply List.ext_getElem?
  intro i
  rw [read_get]
  unfold tailOf
  simp only
  have := read_get m u (u.len - e.length + i)
  rw [h, List.getElem?_append_right (by omega), show u.len - e.length + i - pre.length = i by omega] at this
  rw [this]
  by_cases hi : i < e.length
  · rw [if_pos (by omega), if_pos (by omega), show u.off + (u.len - e.length) + i = u.off + (u.len - e.length + i) by omega]
  · rw [if_neg (by omega), if_neg (by omega)]

theorem separate_sub {u v t : Slice} (h : Separate u t) (h1 : ∀ a p, Spare v a p → Spare u a p)
    (h2 : ∀ a p, Used v a p → Used u a p ∨ Spare u a p) : Separate v t := by
  intro a p
  refine ⟨fun hs => (h a p).1 (h1 a p hs), fun ht hu => ?_⟩
  rcases h2 a p hu with hh | hh
  · exact (h a p).2 ht hh
  · exact ((h a p).1 hh).2 ht

theorem map_map_bind {p : Piece} {m : Mem UInt8} (x : M (List Piece)) (y : M Bytes) (b : Bytes) (hb : p.read m = b)
    (h : x.map (fun ps => (ps.map (·.read m)).flatten) = y) :
    (x.map (p :: ·)).map (fun ps => (ps.map (·.read m)).flatten) = (do let rest ← y; return b ++ rest) := by
  subst h hb
  cases x <;> rfl

theorem decodeLoop_cons (grow : Nat → Nat) (opts : List CharsetOpt) (s : Seg) (ss : List Seg) (σ : Option Slice) (m m1 : Mem UInt8) (ud : Slice)
    (h : (match σ with
      | none => (m, s.ud)
      | some d => m.append grow d (m.read s.ud)) = (m1, ud)) :
    Alias.decodeLoop grow opts (s :: ss) σ m =
      let r := DecodeUserData (m1.read ud) s.pdu.UDH s.pdu.Alphabet.1 opts
      let piece := if s.pdu.Alphabet.1 = .a8Bit then Piece.slice ud else .fresh r.text
      match r.err with
      | none =>
        let (m, ps) := Alias.decodeLoop grow opts ss none m1
        (m, ps.map (piece :: ·))
      | some (.ucs2Dangling e) =>
        let ri := ud.len - e.length
        let (m, ps) := Alias.decodeLoop grow opts ss (some ⟨ud.arr, ud.off + ri, ud.len - ri, ud.cap - ri⟩) m1
        (m, ps.map (piece :: ·))
      | some e => (m1, fail e) := by
  cases σ with
  | none => cases h; rfl
  | some τ =>
    simp only at h
    rw [Alias.decodeLoop, h]
    rfl

theorem decodeLoop_refines (grow : Nat → Nat) (opts : List CharsetOpt) : ∀ (segs : List Seg) (σ : Option Slice) (m m' : Mem UInt8)
    (r : M (List Piece)), (∀ s ∈ segs, Allocated m s.ud) →
    (∀ τ, σ = some τ → Allocated m τ ∧ τ.len ≠ 0 ∧ ∀ s ∈ segs, Separate τ s.ud) →
    segs.Pairwise (fun a b => Separate a.ud b.ud) → Alias.decodeLoop grow opts segs σ m = (m', r) →
    m.next ≤ m'.next ∧
    (∀ a p, a < m.next → (∀ τ, σ = some τ → ¬ Spare τ a p) → (∀ s ∈ segs, ¬ Spare s.ud a p) → m'.get a p = m.get a p) ∧
    r.map (fun ps => (ps.map (·.read m')).flatten) = Model.Sms.decodeLoop opts (segs.map (·.load m)) (pendingOf m σ)
  | [], none, m, m', r, _, _, _, h => by
    cases h
    exact ⟨Nat.le_refl _, fun _ _ _ _ _ => rfl, rfl⟩
  | [], some τ, m, m', r, _, hσ, _, h => by
    cases h
    refine ⟨Nat.le_refl _, fun _ _ _ _ _ => rfl, ?_⟩
    simp only [pendingOf, List.map_nil, Model.Sms.decodeLoop]
    rw [if_pos]
    · rfl
    · intro h
      have := read_length m τ
      rw [h] at this
      exact (hσ τ rfl).2.1 this.symm
  | s :: ss, σ, m, m', r, hv, hσ, hp, h => by
    obtain ⟨hp1, hp2⟩ := List.pairwise_cons.1 hp
    -- the data to decode, and what has been written
    obtain ⟨m1, ud, hmud, f1, f2, f3, f3', f4, f6⟩ : ∃ m1 ud, (match σ with
          | none => (m, s.ud)
          | some d => m.append grow d (m.read s.ud)) = (m1, ud) ∧
        m1.read ud = pendingOf m σ ++ m.read s.ud ∧
        (∀ a p, a < m.next → (∀ τ, σ = some τ → ¬ Spare τ a p) → m1.get a p = m.get a p) ∧
        m.next ≤ m1.next ∧ Allocated m1 ud ∧ (∀ t ∈ ss, Separate ud t.ud) ∧
        (∀ a p, a < m.next → Spare ud a p → (∃ τ, σ = some τ ∧ Spare τ a p) ∨ Spare s.ud a p) := by
      cases σ with
      | none =>
        exact ⟨m, s.ud, rfl, rfl, fun _ _ _ _ => rfl, Nat.le_refl _, hv s (by simp), hp1, fun _ _ _ h => .inr h⟩
      | some τ =>
        obtain ⟨ha, hl, hs⟩ := hσ τ rfl
        obtain ⟨m1, ud, e⟩ : ∃ m1 ud, m.append grow τ (m.read s.ud) = (m1, ud) := ⟨_, _, rfl⟩
        obtain ⟨g1, g2, g3, g4, g5, g6⟩ := append_spec grow m τ _ ha e
        refine ⟨m1, ud, e, g1, fun a p h1 h2 => g2 a p h1 (h2 τ rfl), g3, g4, ?_, ?_⟩
        · intro t ht
          rcases g6 with ⟨a1, a2, a3, a4, _⟩ | ⟨a1, a2, a3, _⟩
          · refine separate_sub (hs t (by simp [ht])) ?_ ?_
            · intro a p hh
              unfold Spare at *; omega
            · intro a p hh
              unfold Used Spare at *; omega
          · have htv := (hv t (by simp [ht])).1
            intro a p
            unfold Used Spare
            omega
        · intro a p hlt hh
          left
          refine ⟨τ, rfl, ?_⟩
          rcases g6 with ⟨a1, a2, a3, a4, _⟩ | ⟨a1, a2, a3, _⟩ <;> (unfold Spare at *; omega)
    have f5 : ∀ t ∈ ss, m1.read t.ud = m.read t.ud := by
      intro t ht
      apply read_congr
      intro a p hu
      apply f2 a p
      · have := (hv t (by simp [ht])).1
        have := hu.1
        omega
      · intro τ e hsp
        exact (((hσ τ e).2.2 t (by simp [ht]) a p).1 hsp).1 hu
    have hload : ss.map (·.load m1) = ss.map (·.load m) := by
      apply List.map_congr_left
      intro t ht
      unfold Seg.load
      rw [f5 t ht]
    have hv1 : ∀ t ∈ ss, Allocated m1 t.ud := fun t ht => ⟨by have := (hv t (by simp [ht])).1; omega, (hv t (by simp [ht])).2⟩
    have hpure : (if pendingOf m σ ≠ [] then pendingOf m σ ++ m.read s.ud else m.read s.ud) = m1.read ud := by
      rw [f1]
      split
      · rfl
      · rename_i hh
        have hh : pendingOf m σ = [] := by simpa using hh
        rw [hh, List.nil_append]
    rw [decodeLoop_cons grow opts s ss σ m m1 ud hmud] at h
    simp only at h
    rw [List.map_cons, Model.Sms.decodeLoop]
    have hUD : (s.load m).UD = m.read s.ud := rfl
    have hH : (s.load m).UDH = s.pdu.UDH := rfl
    have hA : (s.load m).Alphabet = s.pdu.Alphabet := rfl
    simp only [hUD, hH, hA, hpure]
    generalize hd : DecodeUserData (m1.read ud) s.pdu.UDH s.pdu.Alphabet.1 opts = d at *
    -- the piece reads the same later
    have piece : ∀ m2 : Mem UInt8, (∀ a p, a < m1.next → Used ud a p → m2.get a p = m1.get a p) →
        (if s.pdu.Alphabet.1 = .a8Bit then Piece.slice ud else .fresh d.text).read m2 = d.text := by
      intro m2 h2
      split
      · rename_i ha
        rw [ha] at hd
        rw [← hd]
        show m2.read ud = m1.read ud
        apply read_congr
        intro a p hu
        exact h2 a p (by rw [hu.1]; exact f3'.1) hu
      · rfl
    cases he : d.err with
    | none =>
      rw [he] at h
      simp only at h
      obtain ⟨m2, ps, e⟩ : ∃ m2 ps, Alias.decodeLoop grow opts ss none m1 = (m2, ps) := ⟨_, _, rfl⟩
      rw [e] at h
      cases h
      obtain ⟨i1, i2, i3⟩ := decodeLoop_refines grow opts ss none m1 _ _ hv1 (by intro τ h; cases h) hp2 e
      refine ⟨Nat.le_trans f3 i1, ?_, ?_⟩
      · intro a p hlt h1 h2
        rw [i2 a p (by omega) (by intro τ h; cases h) (fun t ht => h2 t (by simp [ht])), f2 a p hlt h1]
      · simp only
        rw [hload] at i3
        refine map_map_bind _ _ _ (piece _ ?_) i3
        intro a p hlt hu
        exact i2 a p hlt (by intro τ h; cases h) (fun t ht hsp => (f4 t ht a p).2 hsp hu)
    | some x =>
      rw [he] at h
      by_cases hx : ∃ e, x = .ucs2Dangling e
      · obtain ⟨e, rfl⟩ := hx
        simp only at h
        obtain ⟨hau, hne, pre, hpre⟩ := dangling_tail _ _ _ _ _ (by rw [hd]; exact he)
        have hlen : e.length ≤ ud.len := by
          have := read_length m1 ud
          rw [hpre, List.length_append] at this
          omega
        have hpos : 0 < e.length := List.length_pos_iff.2 hne
        have hread := tail_read m1 ud pre e hpre
        obtain ⟨m2, ps, e2⟩ : ∃ m2 ps, Alias.decodeLoop grow opts ss (some (tailOf ud (ud.len - e.length))) m1 = (m2, ps) := ⟨_, _, rfl⟩
        have e2' := e2
        unfold tailOf at e2'
        rw [e2'] at h
        cases h
        have hsp := tail_spare (u := ud) (ri := ud.len - e.length) (by omega) f3'.2
        obtain ⟨i1, i2, i3⟩ := decodeLoop_refines grow opts ss _ m1 _ _ hv1 (by
          intro τ hh
          cases hh
          refine ⟨⟨f3'.1, ?_⟩, ?_, ?_⟩
          · have := f3'.2; unfold tailOf; simp only; omega
          · unfold tailOf; simp only; omega
          · intro t ht
            exact separate_sub (f4 t ht) (fun a p hh => (hsp a p).1 hh) (fun a p hh => .inl (tail_used (by omega) a p hh))) hp2 e2
        refine ⟨Nat.le_trans f3 i1, ?_, ?_⟩
        · intro a p hlt h1 h2
          rw [i2 a p (by omega) ?_ (fun t ht => h2 t (by simp [ht])), f2 a p hlt h1]
          intro τ hh hsp'
          cases hh
          rcases f6 a p hlt ((hsp a p).1 hsp') with ⟨τ, e, hτ⟩ | hs'
          · exact h1 τ e hτ
          · exact h2 s (by simp) hs'
        · simp only
          rw [hload, show pendingOf m1 (some (tailOf ud (ud.len - e.length))) = e from hread] at i3
          refine map_map_bind _ _ _ ?_ i3
          rw [hau]
          rfl
      · have hm : (m', r) = (m1, (fail x : M (List Piece))) := by
          rw [← h]
          cases x <;> first | rfl | exact absurd ⟨_, rfl⟩ hx
        cases hm
        refine ⟨f3, fun a p hlt h1 _ => f2 a p hlt h1, ?_⟩
        cases x <;> first | rfl | exact absurd ⟨_, rfl⟩ hx

end Verif.Proofs.Alias
