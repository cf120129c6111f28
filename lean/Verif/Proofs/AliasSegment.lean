import Verif.Proofs.Alias
import Verif.Proofs.Segment2

/-! Segmentation with the arrays behind the headers and the user data. -/

namespace Verif.Proofs.Alias
open Verif.Model Verif.Model.Alias Verif.Spec Verif.Proofs

variable {α : Type}

theorem slice_inv {α : Type} {l : List α} {lo hi : Int} {c : List α} (h : slice l lo hi = .ok c) :
    0 ≤ lo ∧ lo ≤ hi ∧ hi ≤ l.length ∧ c ++ l.drop hi.toNat = l.drop lo.toNat := by
  unfold slice at h
  split at h
  · rename_i hc
    cases h
    refine ⟨hc.1, hc.2.1, hc.2.2, ?_⟩
    have e : l.drop lo.toNat = (l.take hi.toNat ++ l.drop hi.toNat).drop lo.toNat := by rw [List.take_append_drop]
    rw [e, List.drop_append_of_le_length (by rw [List.length_take]; omega)]
  · cases h

theorem chunk7_flatten (msg : Bytes) (bs : Int) : ∀ fuel b cs, chunk7Loop msg bs fuel b = .ok cs →
    cs.flatten = msg.drop b.toNat
  | 0, _, _, h => by cases h
  | fuel + 1, b, cs, h => by
    unfold chunk7Loop at h
    simp only at h
    split at h
    · obtain ⟨e1, _, h⟩ := bind_eq_ok.1 h
      obtain ⟨e, _, h⟩ := bind_eq_ok.1 h
      obtain ⟨c, hc, h⟩ := bind_eq_ok.1 h
      split at h
      · cases h
      · obtain ⟨cs', hcs, h⟩ := bind_eq_ok.1 h
        cases h
        rw [List.flatten_cons, chunk7_flatten msg bs fuel _ _ hcs, (slice_inv hc).2.2.2]
    · obtain ⟨c, hc, h⟩ := bind_eq_ok.1 h
      cases h
      have := (slice_inv hc).2.2.2
      simp only [Int.toNat_natCast, List.drop_length, List.append_nil] at this
      simpa using this

theorem chunk8_flatten (msg : Bytes) (bs : Int) : ∀ fuel b cs, chunk8Loop msg bs fuel b = .ok cs →
    cs.flatten = msg.drop b.toNat
  | 0, _, _, h => by cases h
  | fuel + 1, b, cs, h => by
    unfold chunk8Loop at h
    simp only at h
    split at h
    · obtain ⟨c, hc, h⟩ := bind_eq_ok.1 h
      split at h
      · cases h
      · obtain ⟨cs', hcs, h⟩ := bind_eq_ok.1 h
        cases h
        rw [List.flatten_cons, chunk8_flatten msg bs fuel _ _ hcs, (slice_inv hc).2.2.2]
    · obtain ⟨c, hc, h⟩ := bind_eq_ok.1 h
      cases h
      have := (slice_inv hc).2.2.2
      simp only [Int.toNat_natCast, List.drop_length, List.append_nil] at this
      simpa using this

theorem chunkU_flatten (msg : Bytes) (bs : Int) : ∀ fuel b cs, chunkUCS2Loop msg bs fuel b = .ok cs →
    cs.flatten = msg.drop b.toNat
  | 0, _, _, h => by cases h
  | fuel + 1, b, cs, h => by
    unfold chunkUCS2Loop at h
    simp only at h
    split at h
    · obtain ⟨s, _, h⟩ := bind_eq_ok.1 h
      obtain ⟨r, _, h⟩ := bind_eq_ok.1 h
      generalize (if 0xd800 ≤ r ∧ r < 0xdc00 then b + bs - 2 else b + bs) = e at h
      obtain ⟨c, hc, h⟩ := bind_eq_ok.1 h
      split at h
      · cases h
      · obtain ⟨cs', hcs, h⟩ := bind_eq_ok.1 h
        cases h
        rw [List.flatten_cons, chunkU_flatten msg bs fuel _ _ hcs, (slice_inv hc).2.2.2]
    · obtain ⟨c, hc, h⟩ := bind_eq_ok.1 h
      cases h
      have := (slice_inv hc).2.2.2
      simp only [Int.toNat_natCast, List.drop_length, List.append_nil] at this
      simpa using this

/-- Chunks, where they are returned, make up the message. -/
theorem chunk_flatten (msg : Bytes) (a : Alphabet) (bs : Int) (cs : List Bytes) (h : chunk msg a bs = .ok cs) :
    cs.flatten = msg := by
  have h7 : chunk7Bit msg bs = .ok cs → cs.flatten = msg := by
    intro h
    unfold chunk7Bit at h
    split at h
    · rename_i hl
      cases h
      exact (List.length_eq_zero_iff.1 hl).symm
    · obtain ⟨_, _, h⟩ := bind_eq_ok.1 h
      exact chunk7_flatten _ _ _ _ _ h
  cases a
  · exact h7 h
  · change chunk8Bit msg bs = .ok cs at h
    unfold chunk8Bit at h
    split at h
    · rename_i hl
      cases h
      exact (List.length_eq_zero_iff.1 hl).symm
    · obtain ⟨_, _, h⟩ := bind_eq_ok.1 h
      exact chunk8_flatten _ _ _ _ _ h
  · change chunkUCS2 msg bs = .ok cs at h
    unfold chunkUCS2 at h
    split at h
    · rename_i hl
      cases h
      exact (List.length_eq_zero_iff.1 hl).symm
    · obtain ⟨_, _, h⟩ := bind_eq_ok.1 h
      exact chunkU_flatten _ _ _ _ _ h
  · exact h7 h

/-- Reading a part of a slice. -/
theorem read_part (m : Mem α) (s : Slice) (pos n cap : Nat) (c : List α) (hc : c.length = n)
    (h : ∃ rest, (m.read s).drop pos = c ++ rest) : m.read ⟨s.arr, s.off + pos, n, cap⟩ = c := by
  obtain ⟨rest, h⟩ := h
  apply List.ext_getElem?
  intro i
  rw [read_get]
  simp only
  by_cases hi : i < n
  · rw [if_pos hi]
    have h1 : ((m.read s).drop pos)[i]? = c[i]? := by rw [h, List.getElem?_append_left (by omega)]
    rw [List.getElem?_drop, read_get] at h1
    have hl : pos + i < s.len := by
      have := congrArg List.length h
      rw [List.length_drop, read_length, List.length_append] at this
      omega
    rw [if_pos hl] at h1
    rw [← h1, Nat.add_assoc]
  · rw [if_neg hi, List.getElem?_eq_none (by omega)]

/-- Two appends to an empty slice without capacity: a copy in a new array. -/
theorem append_copy (grow : Nat → Nat) (m : Mem α) (u : Slice) (x : α) (hu : Allocated m u) {m1 m2 : Mem α} {v w : Slice}
    (h1 : m.append grow ⟨u.arr, u.off, 0, 0⟩ (m.read u) = (m1, v)) (h2 : m1.append grow v [x] = (m2, w)) :
    m2.read w = m.read u ++ [x] ∧ (∀ a p, a < m.next → m2.get a p = m.get a p) ∧ m.next ≤ m2.next ∧ Allocated m2 w ∧
      m.next ≤ w.arr := by
  have hu0 : Allocated m ⟨u.arr, u.off, 0, 0⟩ := ⟨hu.1, Nat.le_refl _⟩
  obtain ⟨a1, a2, a3, a4, a5, a6⟩ := append_spec grow m _ _ hu0 h1
  obtain ⟨b1, b2, b3, b4, b5, b6⟩ := append_spec grow m1 _ _ a4 h2
  have hw : m.next ≤ w.arr := by
    rcases b6 with ⟨c1, _, c3, c4, _⟩ | ⟨c1, _⟩
    · rcases a6 with ⟨d1, _, d3, _⟩ | ⟨d1, _⟩
      · simp only [List.length_singleton] at c4 d3
        omega
      · omega
    · omega
  refine ⟨?_, ?_, by omega, b4, hw⟩
  · rw [b1, a1]
    have : m.read ⟨u.arr, u.off, 0, 0⟩ = [] := rfl
    rw [this, List.nil_append]
  · intro a p ha
    rw [b2 a p (by omega), a2 a p ha]
    · rintro ⟨_, h3, h4⟩
      simp only at h3 h4
      omega
    · rintro ⟨h3, h4, h5⟩
      rcases a6 with ⟨d1, _, d3, _⟩ | ⟨d1, _⟩
      · simp only at d3; omega
      · omega

/-- The loop with memory agrees with the one on values; it only writes to new arrays, one for each TPDU. -/
theorem segLoop_refines (grow : Nat → Nat) (t : TPDU) (u msg : Slice) (ief : Int → Int → Int → IE) (ref : Int)
    (count : Nat) (m : Mem UInt8) : ∀ (cs : List Bytes) (i pos : Nat) (mr mr' : Option Counter) (ies ies' : Mem IE) (os : List Out),
    Allocated ies u → t.UDH = ies.read u → (m.read msg).drop pos = cs.flatten →
    Model.Alias.segLoop grow t u msg ief ref count cs i pos mr ies = (ies', os, mr') →
    ies.next ≤ ies'.next ∧ (∀ a p, a < ies.next → ies'.get a p = ies.get a p) ∧
    (os.map (·.load ies' m), mr') = Model.segLoop t ief ref count cs i mr ∧
    (∀ o ∈ os, ies.next ≤ o.udh.arr ∧ o.udh.arr < ies'.next) ∧
    os.Pairwise (fun a b => a.udh.arr ≠ b.udh.arr)
  | [], i, pos, mr, mr', ies, ies', os, _, _, _, h => by
    cases h
    exact ⟨Nat.le_refl _, fun _ _ _ => rfl, rfl, by simp, .nil⟩
  | c :: cs, i, pos, mr, mr', ies, ies', os, hu, ht, hm, h => by
    unfold Model.Alias.segLoop at h
    obtain ⟨p, mr1, e1⟩ : ∃ p mr1, setMR t mr = (p, mr1) := ⟨_, _, rfl⟩
    obtain ⟨i1, v, e2⟩ : ∃ i1 v, ies.append grow ⟨u.arr, u.off, 0, 0⟩ (ies.read u) = (i1, v) := ⟨_, _, rfl⟩
    obtain ⟨i2, w, e3⟩ : ∃ i2 w, i1.append grow v [ief ref count (i + 1)] = (i2, w) := ⟨_, _, rfl⟩
    obtain ⟨i3, ps, mr2, e4⟩ : ∃ i3 ps mr2, Model.Alias.segLoop grow t u msg ief ref count cs (i + 1) (pos + c.length) mr1 i2 =
      (i3, ps, mr2) := ⟨_, _, _, rfl⟩
    simp only [e1, e2, e3, e4] at h
    cases h
    obtain ⟨c1, c2, c3, c4, c5⟩ := append_copy grow ies u _ hu e2 e3
    have hru : i2.read u = ies.read u := read_congr (fun a p hh => c2 a p (by have := hu.1; have := hh.1; omega))
    have hdrop : (m.read msg).drop (pos + c.length) = cs.flatten := by
      rw [← List.drop_drop, hm, List.flatten_cons, List.drop_left]
    obtain ⟨d1, d2, d3, d4, d5⟩ := segLoop_refines grow t u msg ief ref count m cs (i + 1) (pos + c.length) mr1 mr' i2 ies' ps
      ⟨by have := hu.1; omega, hu.2⟩ (by rw [hru]; exact ht) hdrop e4
    refine ⟨by omega, fun a p ha => by rw [d2 a p (by omega), c2 a p ha], ?_, ?_, ?_⟩
    · unfold Model.segLoop
      rw [e1]
      simp only
      rw [← d3]
      simp only [List.map_cons, Prod.mk.injEq, List.cons.injEq, and_true]
      unfold Out.load
      have r1 : ies'.read w = ies.read u ++ [ief ref count (i + 1)] := by
        rw [← c1]
        exact read_congr (fun a p hh => d2 a p (by have := c4.1; have := hh.1; omega))
      have r2 : m.read ⟨msg.arr, msg.off + pos, c.length, msg.cap - pos⟩ = c :=
        read_part m msg pos _ _ c rfl ⟨cs.flatten, by rw [hm, List.flatten_cons]⟩
      simp only [r1, r2, c1, ht, TPDU.SetUDH]
    · intro o ho
      rcases List.mem_cons.1 ho with rfl | ho
      · exact ⟨c5, by have := c4.1; simp only; omega⟩
      · have := d4 o ho
        omega
    · refine List.pairwise_cons.2 ⟨fun o ho => ?_, d5⟩
      have := (d4 o ho).1
      have := c4.1
      simp only
      omega

/-- Segmentation with memory. -/
theorem segment_refines (grow : Nat → Nat) (ies : Mem IE) (m : Mem UInt8) (t : TPDU) (udh msg : Slice) (cfg : SegCfg)
    (hu : Allocated ies udh) {ies' : Mem IE} {r : M Result} (h : Model.Alias.Segment grow ies m t udh msg cfg = (ies', r)) :
    (r.map fun r => (⟨r.pdus.map (·.load ies' m), r.cr, r.mr⟩ : SegResult)) =
      TPDU.Segment { t with UDH := ies.read udh } (m.read msg) cfg ∧
    (∀ a p, a < ies.next → ¬ (a = udh.arr ∧ p = udh.off + udh.len ∧ udh.len < udh.cap) → ies'.get a p = ies.get a p) ∧
    ((msg.len : Int) ≤ TPDU.UDBlockSize { t with UDH := ies.read udh } →
      ies' = ies ∧ ∀ x, r = .ok x → ∀ o ∈ x.pdus, o.udh = udh ∧ o.ud = msg) ∧
    (¬ (msg.len : Int) ≤ TPDU.UDBlockSize { t with UDH := ies.read udh } → ∀ x, r = .ok x →
      (∀ o ∈ x.pdus, ies.next ≤ o.udh.arr ∧ o.udh.arr < ies'.next) ∧ x.pdus.Pairwise (fun a b => a.udh.arr ≠ b.udh.arr)) := by
  unfold Model.Alias.Segment at h
  unfold TPDU.Segment
  simp only [read_length] at h ⊢
  split at h
  · rename_i hl
    cases h
    rw [if_pos hl]
    refine ⟨rfl, fun _ _ _ _ => rfl, fun _ => ⟨rfl, ?_⟩, fun _ => ?_⟩
    · intro x hx; cases hx; simp
    · intro x hx; cases hx; simp
  · rename_i hl
    rw [if_neg hl]
    split at h
    · rename_i hb
      rw [if_pos hb]
      cases h
      refine ⟨?_, fun _ _ _ _ => rfl, fun _ => ⟨rfl, ?_⟩, fun hh => absurd hb hh⟩
      · cases cfg.mr <;> rfl
      · intro x hx o ho
        cases hx
        simp only [List.mem_singleton] at ho
        subst ho
        exact ⟨rfl, rfl⟩
    · rename_i hb
      rw [if_neg hb]
      obtain ⟨i1, u, e1⟩ : ∃ i1 u, ies.append grow udh [cfg.ief 0 0 0] = (i1, u) := ⟨_, _, rfl⟩
      obtain ⟨a1, a2, a3, a4, a5, a6⟩ := append_spec grow ies _ _ hu e1
      simp only [List.length_singleton] at a5 a6
      have hru : i1.read { u with len := u.len - 1 } = ies.read udh := by
        have : (i1.read u).take udh.len = ies.read udh := by
          rw [a1, List.take_left' (read_length _ _)]
        rw [← this]
        apply List.ext_getElem?
        intro k
        rw [List.getElem?_take, read_get, read_get]
        simp only
        by_cases hk : k < udh.len
        · rw [if_pos (by omega), if_pos hk, if_pos (by omega)]
        · rw [if_neg (by omega), if_neg hk]
      simp only [e1, a1, hru] at h
      have hu1 : Allocated i1 { u with len := u.len - 1 } := ⟨a4.1, Nat.le_trans (Nat.sub_le _ _) a4.2⟩
      have hframe : ∀ a p, a < ies.next → ¬ (a = udh.arr ∧ p = udh.off + udh.len ∧ udh.len < udh.cap) →
          i1.get a p = ies.get a p := by
        intro a p h1 h2
        rcases a6 with ⟨_, _, _, b4, _⟩ | ⟨_, _, _, b4⟩
        · have hw : ies.append grow udh [cfg.ief 0 0 0] = (ies.write udh.arr (udh.off + udh.len) [cfg.ief 0 0 0],
              { udh with len := udh.len + 1 }) := by
            unfold Mem.append
            simp only [List.length_singleton]
            rw [if_pos b4]
          rw [e1] at hw
          cases hw
          apply write_get
          simp only [List.length_singleton]
          omega
        · apply a2 a p h1
          unfold Spare
          omega
      split at h
      · rename_i f hf
        cases h
        refine ⟨?_, hframe, fun hh => absurd hh hb, fun _ x hx => by cases hx⟩
        rw [hf]
        rfl
      · rename_i cs hcs
        obtain ⟨i2, os, mr', e4⟩ : ∃ i2 os mr', Model.Alias.segLoop grow
            { TPDU.SetUDH { t with UDH := ies.read udh } (some (ies.read udh ++ [cfg.ief 0 0 0])) with UDH := ies.read udh }
            { u with len := u.len - 1 } msg cfg.ief (match cfg.cr with
              | none => ((1 : Int), none)
              | some c => (c.count.1, some c.count.2)).1 cs.length cs 0 0 cfg.mr i1 = (i2, os, mr') := ⟨_, _, _, rfl⟩
        obtain ⟨d1, d2, d3, d4, d5⟩ := segLoop_refines grow _ _ msg _ _ _ m cs 0 0 _ _ i1 _ _ hu1 hru.symm
          (by rw [List.drop_zero]; exact (chunk_flatten _ _ _ _ hcs).symm) e4
        have h : (fun S : Mem IE × List Out × Option Counter => (S.1, (.ok ⟨S.2.1, (match cfg.cr with
              | none => ((1 : Int), none)
              | some c => (c.count.1, some c.count.2)).2, S.2.2⟩ : M Result))) (Model.Alias.segLoop grow
            { TPDU.SetUDH { t with UDH := ies.read udh } (some (ies.read udh ++ [cfg.ief 0 0 0])) with UDH := ies.read udh }
            { u with len := u.len - 1 } msg cfg.ief (match cfg.cr with
              | none => ((1 : Int), none)
              | some c => (c.count.1, some c.count.2)).1 cs.length cs 0 0 cfg.mr i1) = (ies', r) := h
        rw [e4] at h
        cases h
        refine ⟨?_, ?_, fun hh => absurd hh hb, ?_⟩
        · rw [hcs, ok_bind]
          exact congrArg (fun S => (.ok ⟨S.1, (match cfg.cr with
              | none => ((1 : Int), none)
              | some c => (c.count.1, some c.count.2)).2, S.2⟩ : M SegResult)) d3
        · intro a p h1 h2
          rw [d2 a p (by omega), hframe a p h1 h2]
        · intro _ x hx
          cases hx
          exact ⟨fun o ho => ⟨by have := (d4 o ho).1; omega, (d4 o ho).2⟩, d5⟩

theorem segLoop_frame (grow : Nat → Nat) (t : TPDU) (u msg : Slice) (ief : Int → Int → Int → IE) (ref : Int) (count : Nat)
    (m : Mem UInt8) (cs : List Bytes) (mr : Option Counter) (ies : Mem IE) (hu : Allocated ies u) (ht : t.UDH = ies.read u)
    (hm : m.read msg = cs.flatten) (a p : Nat) (ha : a < ies.next) :
    (Model.Alias.segLoop grow t u msg ief ref count cs 0 0 mr ies).1.get a p = ies.get a p :=
  (segLoop_refines grow t u msg ief ref count m cs 0 0 mr _ ies _ _ hu ht (by rw [List.drop_zero]; exact hm) rfl).2.1 a p ha

/-- The one element that `Segment` writes, if it does, is the concatenation element made for the sizes only. -/
theorem segment_writes (grow : Nat → Nat) (ies : Mem IE) (m : Mem UInt8) (t : TPDU) (udh msg : Slice) (cfg : SegCfg)
    (hu : Allocated ies udh) {ies' : Mem IE} {r : M Result} (h : Model.Alias.Segment grow ies m t udh msg cfg = (ies', r))
    (hl : msg.len ≠ 0) (hb : ¬ (msg.len : Int) ≤ TPDU.UDBlockSize { t with UDH := ies.read udh }) (hc : udh.len < udh.cap) :
    ies'.get udh.arr (udh.off + udh.len) = cfg.ief 0 0 0 := by
  unfold Model.Alias.Segment at h
  simp only [read_length] at h
  rw [if_neg hl, if_neg hb] at h
  have hw : ies.append grow udh [cfg.ief 0 0 0] = (ies.write udh.arr (udh.off + udh.len) [cfg.ief 0 0 0],
      { udh with len := udh.len + 1 }) := by
    unfold Mem.append
    simp only [List.length_singleton]
    rw [if_pos (by omega)]
  obtain ⟨a1, a2, a3, a4, a5, a6⟩ := append_spec grow ies _ _ hu hw
  have hg : (ies.write udh.arr (udh.off + udh.len) [cfg.ief 0 0 0]).get udh.arr (udh.off + udh.len) = cfg.ief 0 0 0 :=
    write_get_in ies udh.arr (udh.off + udh.len) [cfg.ief 0 0 0] 0 _ rfl
  simp only [hw] at h
  split at h
  · cases h; exact hg
  · rename_i cs hcs
    cases h
    refine Eq.trans (segLoop_frame grow _ _ msg _ _ _ m cs _ _ ?_ ?_ ?_ _ _ ?_) hg
    · exact ⟨hu.1, by have := hu.2; simp only; omega⟩
    · rfl
    · exact (chunk_flatten _ _ _ _ hcs).symm
    · exact hu.1

/-- The user data of the TPDUs are consecutive slices of the message, each with capacity to the end of that of the
message. -/
theorem segLoop_uds (grow : Nat → Nat) (t : TPDU) (u msg : Slice) (ief : Int → Int → Int → IE) (ref : Int)
    (count : Nat) : ∀ (cs : List Bytes) (i pos : Nat) (mr mr' : Option Counter) (ies ies' : Mem IE) (os : List Out),
    Model.Alias.segLoop grow t u msg ief ref count cs i pos mr ies = (ies', os, mr') → ∀ (k : Nat) (c : Bytes), cs[k]? = some c →
    ∃ o, os[k]? = some o ∧ o.ud = ⟨msg.arr, msg.off + (pos + (cs.take k).flatten.length), c.length,
      msg.cap - (pos + (cs.take k).flatten.length)⟩
  | [], i, pos, mr, mr', ies, ies', os, _, k, c, hk => by simp at hk
  | c :: cs, i, pos, mr, mr', ies, ies', os, h, k, c', hk => by
    unfold Model.Alias.segLoop at h
    cases h
    cases k with
    | zero =>
      cases hk
      exact ⟨_, rfl, by simp⟩
    | succ k =>
      obtain ⟨o, h1, h2⟩ := segLoop_uds grow t u msg ief ref count cs (i + 1) (pos + c.length) _ _ _ _ _ rfl k c' hk
      refine ⟨o, h1, ?_⟩
      rw [h2, List.take_succ_cons, List.flatten_cons, List.length_append, Nat.add_assoc]

theorem segLoop_count (grow : Nat → Nat) (t : TPDU) (u msg : Slice) (ief : Int → Int → Int → IE) (ref : Int)
    (count : Nat) : ∀ (cs : List Bytes) (i pos : Nat) (mr mr' : Option Counter) (ies ies' : Mem IE) (os : List Out),
    Model.Alias.segLoop grow t u msg ief ref count cs i pos mr ies = (ies', os, mr') → os.length = cs.length
  | [], i, pos, mr, mr', ies, ies', os, h => by cases h; rfl
  | c :: cs, i, pos, mr, mr', ies, ies', os, h => by
    unfold Model.Alias.segLoop at h
    cases h
    simp only [List.length_cons]
    rw [segLoop_count grow t u msg ief ref count cs _ _ _ _ _ _ _ rfl]

theorem segLoop_adjacent (grow : Nat → Nat) (t : TPDU) (u msg : Slice) (ief : Int → Int → Int → IE) (ref : Int)
    (count : Nat) (cs : List Bytes) (i pos : Nat) (mr : Option Counter) (ies : Mem IE) (k : Nat) (o o' : Out)
    (hc : pos + cs.flatten.length ≤ msg.cap)
    (ho : (Model.Alias.segLoop grow t u msg ief ref count cs i pos mr ies).2.1[k]? = some o)
    (ho' : (Model.Alias.segLoop grow t u msg ief ref count cs i pos mr ies).2.1[k + 1]? = some o') :
    o.ud.arr = msg.arr ∧ o'.ud.arr = msg.arr ∧ o'.ud.off = o.ud.off + o.ud.len ∧
      o'.ud.off + o'.ud.len ≤ o.ud.off + o.ud.cap := by
  have hn := segLoop_count grow t u msg ief ref count cs i pos mr _ ies _ _ rfl
  have hk' : k + 1 < cs.length := by
    rw [← hn]
    exact (List.getElem?_eq_some_iff.1 ho').1
  obtain ⟨a, a1, a2⟩ := segLoop_uds grow t u msg ief ref count cs i pos mr _ ies _ _ rfl k cs[k]
    (List.getElem?_eq_getElem (by omega))
  obtain ⟨b, b1, b2⟩ := segLoop_uds grow t u msg ief ref count cs i pos mr _ ies _ _ rfl (k + 1) cs[k + 1]
    (List.getElem?_eq_getElem hk')
  rw [a1] at ho
  rw [b1] at ho'
  cases ho
  cases ho'
  rw [a2, b2]
  have e : cs.take (k + 1) = cs.take k ++ [cs[k]] := List.take_succ_eq_append_getElem (by omega)
  have e2 : cs = cs.take k ++ cs[k] :: cs[k + 1] :: cs.drop (k + 2) := by
    rw [List.getElem_cons_drop, List.getElem_cons_drop, List.take_append_drop]
  have e3 : cs.flatten.length = (cs.take k).flatten.length + (cs[k].length + (cs[k + 1].length + (cs.drop (k + 2)).flatten.length)) := by
    have := congrArg (fun l : List Bytes => l.flatten.length) e2
    simp only [List.flatten_append, List.flatten_cons, List.length_append] at this
    exact this
  simp only [e, List.flatten_append, List.flatten_cons, List.flatten_nil, List.length_append, List.length_nil]
  refine ⟨trivial, trivial, by omega, by omega⟩

/-- The user data of consecutive TPDUs of a message are adjacent, and the capacity of the first includes the second. -/
theorem segment_uds (grow : Nat → Nat) (ies : Mem IE) (m : Mem UInt8) (t : TPDU) (udh msg : Slice) (cfg : SegCfg)
    (hl : msg.len ≤ msg.cap) {ies' : Mem IE} {x : Result} (h : Model.Alias.Segment grow ies m t udh msg cfg = (ies', .ok x))
    (k : Nat) (o o' : Out) (ho : x.pdus[k]? = some o) (ho' : x.pdus[k + 1]? = some o') :
    o.ud.arr = msg.arr ∧ o'.ud.arr = msg.arr ∧ o'.ud.off = o.ud.off + o.ud.len ∧
      o'.ud.off + o'.ud.len ≤ o.ud.off + o.ud.cap := by
  unfold Model.Alias.Segment at h
  simp only at h
  split at h
  · cases h
    simp at ho
  · split at h
    · cases h
      simp at ho'
    · split at h
      · cases h
      · rename_i cs hcs
        have hfl := chunk_flatten _ _ _ _ hcs
        cases h
        simp only at ho ho'
        exact segLoop_adjacent grow _ _ msg _ _ _ cs 0 0 _ _ k o o' (by rw [hfl, read_length]; omega) ho ho'

end Verif.Proofs.Alias
