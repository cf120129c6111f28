import Verif.Proofs.EncodeSms

/-! C43: message and concatenation references across the calls of one encoder. -/

namespace Verif.Props

open Verif.Model Verif.Spec Verif.Proofs

/-- What the successive calls `e.Encode msg options...` return (nothing, when a call fails).  The counters of the
encoder are shared by the calls.  A failing call does not count: errors and panics come before the first
`Count()` in `TPDU.Segment` (tpdu.go:189-233). -/
def encodes (e : Model.Sms.Encoder) : List (List UInt8 × List Model.Sms.EncoderOption) → List (List TPDU)
  | [] => []
  | (msg, options) :: calls => match e.Encode msg options with
    | .ok r => r.pdus :: encodes { e with MsgCount := r.MsgCount, ConcatRef := r.ConcatRef } calls
    | .error _ => [] :: encodes e calls

/-- The TPDUs and counters `r` are what a call that numbers its TPDUs with the counters of `e` returns. -/
def Counted (e : Model.Sms.Encoder) (r : Model.Sms.EncResult) : Prop :=
  r.pdus.map TPDU.MR = (List.range r.pdus.length).map (fun k => byteOf (e.MsgCount.vals (e.MsgCount.pos + k))) ∧
  r.MsgCount = advance r.pdus.length e.MsgCount ∧
  (r.pdus.length < 2 → r.ConcatRef = e.ConcatRef) ∧
  (2 ≤ r.pdus.length → r.ConcatRef = advance 1 e.ConcatRef ∧
    ∀ (k : Nat) (p : TPDU), r.pdus[k]? = some p → p.UDH.getLast? =
      some ⟨0, [byteOf (e.ConcatRef.vals e.ConcatRef.pos), byteOf r.pdus.length, byteOf (k + 1)]⟩)

theorem segment_counted (e : Model.Sms.Encoder) (t : TPDU) (d : Bytes) (r : Model.Sms.EncResult)
    (hh : (do
      let r ← t.Segment d (encCfg e)
      return (⟨r.pdus, r.mr.getD e.MsgCount, r.cr.getD e.ConcatRef⟩ : Model.Sms.EncResult) : M _) = .ok r) :
    Counted e r := by
  obtain ⟨res, hres, hh⟩ := bind_eq_ok.mp hh
  cases hh
  unfold Counted
  rcases segment_ok_forms t d _ res hres with ⟨h1, h2, h3⟩ | ⟨h1, h2, h3⟩ | ⟨cs, hl, h1, h2, h3⟩
  · simp only [h1, h2, h3]
    refine ⟨rfl, rfl, fun _ => rfl, fun h => absurd h (by simp)⟩
  · simp only [h1, h2, h3]
    refine ⟨rfl, rfl, fun _ => rfl, fun h => absurd h (by simp)⟩
  · simp only [h1, h2, h3, List.length_mapIdx]
    refine ⟨?_, rfl, fun h => absurd h (by omega), fun _ => ⟨rfl, ?_⟩⟩
    · apply List.ext_getElem
      · simp
      · intro k h1 h2
        simp only [List.getElem_map, List.getElem_mapIdx, List.getElem_range]
        rfl
    · intro k p hp
      simp only [List.getElem?_mapIdx, Option.map_eq_some_iff] at hp
      obtain ⟨c, _, rfl⟩ := hp
      show (t.UDH ++ [_]).getLast? = _
      rw [List.getLast?_append]
      rfl

theorem encode_counted (e : Model.Sms.Encoder) (msg : List UInt8) (options : List Model.Sms.EncoderOption)
    (r : Model.Sms.EncResult) (h : e.Encode msg options = .ok r) : Counted e r := by
  rcases alphabet_cases (options.foldl Model.Sms.Encoder.apply e).pdu with h7 | h8
  · by_cases hc : CanCarry (group (options.foldl Model.Sms.Encoder.apply e).pdu.DCS)
        (EncodeUserData msg (options.foldl Model.Sms.Encoder.apply e).eopts).2.2
    · obtain ⟨dcs, _, henc⟩ := encode_auto e msg options h7 hc
      rw [henc] at h
      exact segment_counted e _ _ r h
    · rw [encode_conflict e msg options h7 hc] at h; cases h
  · rw [encode_explicit e msg options h8] at h
    exact segment_counted e _ _ r h

theorem encodes_mr (calls : List (List UInt8 × List Model.Sms.EncoderOption)) : ∀ e : Model.Sms.Encoder,
    ((encodes e calls).flatten.map TPDU.MR) =
      (List.range (encodes e calls).flatten.length).map (fun k => byteOf (e.MsgCount.vals (e.MsgCount.pos + k))) := by
  induction calls with
  | nil => intro e; rfl
  | cons c calls ih =>
    intro e
    obtain ⟨msg, options⟩ := c
    rw [encodes]
    cases h : e.Encode msg options with
    | error f => exact ih e
    | ok r =>
      obtain ⟨h1, h2, _⟩ := encode_counted e msg options r h
      simp only [List.flatten_cons, List.map_append, List.length_append]
      rw [ih, h1, h2, List.range_add, List.map_append, List.map_map]
      congr 1
      apply List.map_congr_left
      intro k _
      simp [advance, Nat.add_assoc]

theorem encodes_cr (calls : List (List UInt8 × List Model.Sms.EncoderOption)) : ∀ (e : Model.Sms.Encoder) (i : Nat) (pdus : List TPDU),
    ((encodes e calls).filter (fun pdus => 2 ≤ pdus.length))[i]? = some pdus →
    ∀ (k : Nat) (p : TPDU), pdus[k]? = some p → p.UDH.getLast? =
      some ⟨0, [byteOf (e.ConcatRef.vals (e.ConcatRef.pos + i)), byteOf pdus.length, byteOf (k + 1)]⟩ := by
  induction calls with
  | nil => intro e i pdus h; simp [encodes] at h
  | cons c calls ih =>
    intro e i pdus hp
    obtain ⟨msg, options⟩ := c
    rw [encodes] at hp
    cases h : e.Encode msg options with
    | error f => rw [h] at hp; exact ih e i pdus hp
    | ok r =>
      rw [h] at hp
      simp only at hp
      obtain ⟨_, _, h3, h4⟩ := encode_counted e msg options r h
      by_cases hl : 2 ≤ r.pdus.length
      · rw [List.filter_cons_of_pos (by simpa using hl)] at hp
        obtain ⟨h5, h6⟩ := h4 hl
        cases i with
        | zero => simp only [List.getElem?_cons_zero, Option.some.injEq] at hp; subst hp; exact h6
        | succ i =>
          rw [List.getElem?_cons_succ] at hp
          intro k p hk
          have := ih _ i pdus hp k p hk
          rw [this, h5]
          simp [advance, Nat.add_assoc, Nat.add_comm 1]
      · rw [List.filter_cons_of_neg (by simpa using hl)] at hp
        have := ih _ i pdus hp
        rw [h3 (by omega)] at this
        exact this

theorem byteOf_succ (k : Nat) : byteOf ((k : Int) + 1) = UInt8.ofNat (k + 1) := by
  apply UInt8.toNat_inj.mp
  simp only [byteOf, UInt8.toNat_ofNat']
  omega

theorem newEncoder_counters (options : List Model.Sms.EncoderOption) :
    (Sms.NewEncoder options).MsgCount = Model.Sms.newCounter ∧ (Sms.NewEncoder options).ConcatRef = Model.Sms.newCounter :=
  apply_counters options _

/-- C43: the MR octets of all TPDUs an encoder produces, in order, are 1, 2, 3, ... modulo 256, whatever the
messages and options of its calls. -/
theorem C43_mr (options : List Model.Sms.EncoderOption) (calls : List (List UInt8 × List Model.Sms.EncoderOption)) :
    let pdus := (encodes (Sms.NewEncoder options) calls).flatten
    pdus.map TPDU.MR = (List.range pdus.length).map (fun k => UInt8.ofNat (k + 1)) := by
  intro pdus
  have := encodes_mr calls (Sms.NewEncoder options)
  rw [(newEncoder_counters options).1] at this
  rw [this]
  apply List.map_congr_left
  intro k _
  simp only [Model.Sms.newCounter, Nat.zero_add]
  exact byteOf_succ k

/-- C43: every TPDU of the `i`-th message of more than one TPDU has as its last information element the
concatenation element with reference `i + 1` modulo 256. -/
theorem C43_concat (options : List Model.Sms.EncoderOption) (calls : List (List UInt8 × List Model.Sms.EncoderOption))
    (i : Nat) (pdus : List TPDU)
    (h : ((encodes (Sms.NewEncoder options) calls).filter (fun pdus => 2 ≤ pdus.length))[i]? = some pdus) :
    ∀ (k : Nat) (p : TPDU), pdus[k]? = some p → p.UDH.getLast? =
      some ⟨0, [UInt8.ofNat (i + 1), UInt8.ofNat pdus.length, UInt8.ofNat (k + 1)]⟩ := by
  intro k p hk
  have := encodes_cr calls (Sms.NewEncoder options) i pdus h k p hk
  rw [(newEncoder_counters options).2] at this
  rw [this]
  simp only [Model.Sms.newCounter, Nat.zero_add, byteOf_succ]
  congr 4
  apply UInt8.toNat_inj.mp
  simp only [byteOf, UInt8.toNat_ofNat']
  omega

/-- C43: messages less than 256 apart have different references. -/
theorem C43_distinct (options : List Model.Sms.EncoderOption) (calls : List (List UInt8 × List Model.Sms.EncoderOption))
    (i j : Nat) (hij : i < j) (hnear : j < i + 256) (xs ys : List TPDU)
    (hx : ((encodes (Sms.NewEncoder options) calls).filter (fun pdus => 2 ≤ pdus.length))[i]? = some xs)
    (hy : ((encodes (Sms.NewEncoder options) calls).filter (fun pdus => 2 ≤ pdus.length))[j]? = some ys)
    (x y : TPDU) (hmx : x ∈ xs) (hmy : y ∈ ys) :
    ∃ a b s t, x.UDH.getLast? = some ⟨0, a :: s⟩ ∧ y.UDH.getLast? = some ⟨0, b :: t⟩ ∧ a ≠ b := by
  obtain ⟨k, hk⟩ := List.getElem?_of_mem hmx
  obtain ⟨l, hl⟩ := List.getElem?_of_mem hmy
  refine ⟨_, _, _, _, C43_concat options calls i xs hx k x hk, C43_concat options calls j ys hy l y hl, ?_⟩
  intro h
  have := congrArg UInt8.toNat h
  simp only [UInt8.toNat_ofNat'] at this
  omega

/-- Beside C43: three calls, of which one fails and one makes two TPDUs. -/
example : (encodes (Sms.NewEncoder [Sms.AsSubmit])
    [([65], []), (List.replicate 161 65, []), ([0xe4, 0xb8, 0xad], [.templateOption (.dcs 0xc0)]), ([66], [])]).map
      (fun pdus => pdus.map (fun p => (p.MR, p.UDH))) =
    [[(1, [])], [(2, [⟨0, [1, 2, 1]⟩]), (3, [⟨0, [1, 2, 2]⟩])], [], [(4, [])]] := by decide +kernel

end Verif.Props
