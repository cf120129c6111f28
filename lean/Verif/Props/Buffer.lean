import Verif.Proofs.Buffer
import Verif.Props.Alias

/-! C118: what was unmarshalled does not share the buffer. -/

namespace Verif.Props
open Verif.Model Verif.Model.Alias Verif.Model.Buffer Verif.Spec Verif.Proofs.Buffer

/-- Unmarshalling octets in a slice of some array: the TPDU found in memory is the one that `Unmarshal` returns as a value,
or the error is the same; no array that exists is written to; and once the TPDU is there, nothing written to any array that
existed before, the one with the octets among them, makes it another TPDU. -/
theorem C118_unmarshal (grow : Nat → Nat) (src : Slice) (dirn : Int) (m m' : Mem UInt8) (r : M Loaded) (hs : Allocated m src)
    (h : Buffer.Unmarshal grow src dirn m = (r, m')) :
    r.map (·.load m') = Model.Sms.Unmarshal (m.read src) dirn ∧
    (∀ a p, a < m.next → m'.get a p = m.get a p) ∧
    ∀ o, r = .ok o → ∀ m'' : Mem UInt8, (∀ a p, m.next ≤ a → m''.get a p = m'.get a p) → o.load m'' = o.load m' := by
  have hd := unmarshal_does grow src dirn m hs.1
  have ho := does_outcome hd
  have hk := hd.1
  rw [h] at ho hk
  refine ⟨ho.1, hk.2, fun o e m'' hm => ?_⟩
  have hn := ho.2 o e
  exact load_congr hn.fit fun s hs a p hc => hm a p (hn.made s hs a p hc).1

/-- The user data and the data of each information element are in new arrays, and none of them overlaps another, nor its
unused capacity: they can be changed, and appended to, each on its own. -/
theorem C118_apart (grow : Nat → Nat) (src : Slice) (dirn : Int) (m m' : Mem UInt8) (o : Loaded) (hs : Allocated m src)
    (h : Buffer.Unmarshal grow src dirn m = (.ok o, m')) :
    (∀ s ∈ slicesOf o, s.len ≤ s.cap ∧ ∀ a p, Covers s a p → m.next ≤ a ∧ a < m'.next) ∧ (slicesOf o).Pairwise Spec.Disjoint := by
  have ho := does_outcome (unmarshal_does grow src dirn m hs.1)
  rw [h] at ho
  have hn := ho.2 o rfl
  exact ⟨fun s hs => ⟨hn.fit s hs, hn.made s hs⟩, hn.apart⟩

/-- A receiver that puts all messages into the same buffer: when all have been received, each TPDU it has kept is what
`Unmarshal` returns for that message. -/
theorem C118_one_buffer (grow : Nat → Nat) (dirn : Int) (buf : Slice) (m m' : Mem UInt8) (msgs : List (List UInt8))
    (kept : List (M Loaded)) (hs : Allocated m buf)
    (h : receiveAll (fun s => Buffer.Unmarshal grow s dirn) buf msgs m = (kept, m')) :
    kept.map (fun r => r.map (·.load m')) = msgs.map (Model.Sms.Unmarshal · dirn) := by
  have := receive_all buf (v := fun b => Model.Sms.Unmarshal b dirn) (fun s m hm => unmarshal_does grow s dirn m hm) msgs m hs.1
  rw [h] at this
  exact this

/-- What is needed for `Decode` to leave its arguments alone (`C62_decode_partial`) holds of TPDUs that were received in this
way: their text is that of the messages, whatever the buffer holds by then, and none of them is changed by `Decode`. -/
theorem C118_decode (grow grow' : Nat → Nat) (dirn : Int) (buf : Slice) (m m' m'' : Mem UInt8) (msgs : List (List UInt8))
    (kept : List Loaded) (opts : List CharsetOpt) (r : M (List UInt8)) (hs : Allocated m buf)
    (h : receiveAll (fun s => Buffer.Unmarshal grow s dirn) buf msgs m = (kept.map .ok, m'))
    (hd : Model.Alias.Decode grow' m' (kept.map (segmentOf m')) opts = (m'', r)) :
    (∃ ts : List TPDU, msgs.map (Model.Sms.Unmarshal · dirn) = ts.map .ok ∧ r = Model.Sms.Decode ts opts) ∧
    ∀ o ∈ kept, o.load m'' = o.load m' := by
  have hf := fun s m hm => unmarshal_does grow s dirn m hm
  have hn := receive_new buf (v := fun b => Model.Sms.Unmarshal b dirn) hf msgs m kept hs.1 (by rw [h])
  have hv := C118_one_buffer grow dirn buf m m' msgs _ hs h
  have hk := (receive_keeps buf (v := fun b => Model.Sms.Unmarshal b dirn) hf msgs m hs.1).1
  rw [h] at hn hk
  simp only at hn hk
  have hu : ∀ o ∈ kept, o.ud ∈ kept.flatMap slicesOf := fun o ho => List.mem_flatMap.2 ⟨o, ho, by simp [slicesOf]⟩
  have hall : ∀ g ∈ kept.map (segmentOf m'), Allocated m' g.ud := by
    intro g hg
    obtain ⟨o, ho, rfl⟩ := List.mem_map.1 hg
    refine ⟨?_, hn.fit _ (hu o ho)⟩
    show o.ud.arr < m'.next
    by_cases hc : o.ud.cap = 0
    · rw [hn.zero _ (hu o ho) hc]
      have := hs.1
      omega
    · exact (hn.made _ (hu o ho) o.ud.arr o.ud.off ⟨rfl, Nat.le_refl _, by omega⟩).2
  have hcov : ∀ {s : Slice} {a p : Nat}, s.len ≤ s.cap → Used s a p ∨ Spare s a p → Covers s a p := by
    intro s a p hl h
    unfold Used Spare at h
    unfold Covers
    omega
  have hsep : (kept.map (segmentOf m')).Pairwise (fun s t => Separate s.ud t.ud) := by
    have h1 := pairwise_flatMap (g := Loaded.ud) (f := slicesOf) (fun o => by simp [slicesOf]) kept hn.apart
    rw [List.pairwise_map] at h1 ⊢
    refine h1.imp_of_mem fun {o o'} ho ho' hdis => ?_
    have hl := hn.fit _ (hu o ho)
    have hl' := hn.fit _ (hu o' ho')
    intro a p
    refine ⟨fun hsp => ⟨fun hx => ?_, fun hx => ?_⟩, fun hsp hx => ?_⟩
    · exact hdis a p (hcov hl (.inr hsp)) (hcov hl' (.inl hx))
    · exact hdis a p (hcov hl (.inr hsp)) (hcov hl' (.inr hx))
    · exact hdis a p (hcov hl (.inl hx)) (hcov hl' (.inr hsp))
  obtain ⟨h1, h2, h3⟩ := C62_decode_partial grow' m' m'' _ opts r hall hsep hd
  have hval : (kept.map (segmentOf m')).map (·.load m') = kept.map (·.load m') := by
    rw [List.map_map]
    rfl
  refine ⟨⟨kept.map (·.load m'), ?_, by rw [h1, hval]⟩, fun o ho => ?_⟩
  · rw [← hv, List.map_map, List.map_map]
    rfl
  · have hud : m''.read o.ud = m'.read o.ud := by
      have := congrArg TPDU.UD (h2 (segmentOf m' o) (List.mem_map_of_mem ho))
      exact this
    have hel : o.udh.map (·.load m'') = o.udh.map (·.load m') := by
      apply List.map_congr_left
      intro e he
      have hmem : e.data ∈ kept.flatMap slicesOf :=
        List.mem_flatMap.2 ⟨o, ho, by unfold slicesOf; exact List.mem_cons_of_mem _ (List.mem_map_of_mem he)⟩
      unfold Elem.load
      rw [Verif.Proofs.Alias.read_congr (m := m') (m' := m'') (s := e.data) fun a p hx => ?_]
      have hc := hcov (hn.fit _ hmem) (.inl hx)
      refine h3 a p (hn.made _ hmem a p hc).2 fun g hg hsp => ?_
      obtain ⟨o', ho', rfl⟩ := List.mem_map.1 hg
      have hc' : Covers o'.ud a p := hcov (hn.fit _ (hu o' ho')) (.inr hsp)
      exact apart_elem hn.apart ho ho' he a p hc hc'
    unfold Loaded.load
    rw [hud, hel]

/-- Of `pdumode.UnmarshalBinary` the TPDU is the rest of the octets it was given, and not a copy of them; nothing is written. -/
theorem C118_pdumode (src : Slice) (m m' : Mem UInt8) (r : M (Address × Slice)) (h : unmarshalPDU src m = (r, m')) :
    m' = m ∧ r.map (fun p => (⟨p.1, m.read p.2⟩ : PDU)) = PDU.UnmarshalBinary (m.read src) ∧
    ∀ p, r = .ok p → ∃ n, n ≤ src.len ∧ p.2 = ⟨src.arr, src.off + n, src.len - n, src.cap - n⟩ := by
  have hm : m' = m := by
    have e : m' = (unmarshalPDU src m).2 := by rw [h]
    rw [e]
    show (Heap.seq (Heap.read src) _ m).2 = m
    simp only [Heap.seq, Heap.read]
    show (Heap.seq (Heap.eval _) _ m).2 = m
    unfold Heap.seq Heap.eval
    cases SMSCAddress.UnmarshalBinary {} (m.read src) with
    | error e => rfl
    | ok a =>
      show (Heap.seq (Heap.eval (slice _ _ _)) _ m).2 = m
      unfold Heap.seq Heap.eval
      cases slice (m.read src) a.2 (m.read src).length <;> rfl
  have hd := pdu_does src m
  unfold Does at hd
  rw [h] at hd
  obtain ⟨_, hd⟩ := hd
  generalize PDU.UnmarshalBinary (m.read src) = v at hd
  cases r with
  | ok a =>
    cases v with
    | ok b =>
      obtain ⟨_, h1, h2, n, hn, e⟩ := hd
      refine ⟨hm, ?_, fun p hp => ?_⟩
      · show Except.ok (⟨a.1, m.read a.2⟩ : PDU) = Except.ok b
        rw [h1, h2]
      · cases hp
        exact ⟨n, hn, e⟩
    | error e => exact hd.elim
  | error e =>
    cases v with
    | ok b => exact hd.elim
    | error e' =>
      have hd : e = e' := hd
      exact ⟨hm, by rw [hd]; rfl, fun p hp => by cases hp⟩

/-- So a TPDU that has been unmarshalled out of it before the next message came is right all the same. -/
theorem C118_modem (grow : Nat → Nat) (dirn : Int) (buf : Slice) (m m' : Mem UInt8) (msgs : List (List UInt8))
    (kept : List (M Loaded)) (hs : Allocated m buf) (h : receiveAll (fromModem grow dirn) buf msgs m = (kept, m')) :
    kept.map (fun r => r.map (·.load m')) =
      msgs.map (fun b => do
        let p ← PDU.UnmarshalBinary b
        Model.Sms.Unmarshal p.TPDU dirn) := by
  have := receive_all buf (f := fromModem grow dirn)
    (v := fun b => PDU.UnmarshalBinary b >>= fun p => Model.Sms.Unmarshal p.TPDU dirn) (fun s m hm => modem_does grow dirn s m hm) msgs m hs.1
  rw [h] at this
  exact this

/-- Not so one that is kept in binary form: when the next message is in the buffer, it has become that one. -/
theorem C118_pdumode_shared :
    let m : Mem UInt8 := ⟨1, fun _ _ => 0⟩
    let q := receiveAll unmarshalPDU ⟨0, 0, 0, 4⟩ [[0, 1, 2], [0, 3, 4]] m
    q.1.map (fun r => r.map fun p => q.2.read p.2) = [.ok [3, 4], .ok [3, 4]] ∧
    [[0, 1, 2], [0, 3, 4]].map (fun b => (PDU.UnmarshalBinary b).map PDU.TPDU) = [.ok [1, 2], .ok [3, 4]] := by
  decide +kernel

/-- A deliver with a header of one element and user data, and then a shorter one, read into the same buffer; the hypotheses
are met, and both TPDUs are as they should be afterwards. -/
example :
    let m : Mem UInt8 := ⟨1, fun _ _ => 0⟩
    let one : List UInt8 := [0x44, 2, 0x91, 0x21, 0, 4, 0x12, 0x10, 0x21, 0x10, 0x21, 0x10, 0, 8, 5, 0, 3, 9, 2, 1, 0x61, 0x62]
    let two : List UInt8 := [0x04, 2, 0x91, 0x43, 0, 4, 0x12, 0x10, 0x21, 0x10, 0x21, 0x10, 0, 2, 0x63, 0x64]
    let q := receiveAll (fun s => Buffer.Unmarshal (fun n => n) s MT) ⟨0, 0, 0, 30⟩ [one, two] m
    Allocated m ⟨0, 0, 0, 30⟩ ∧
    q.1.map (fun r => r.map fun o => ((o.load q.2).UD, (o.load q.2).UDH)) =
      [.ok ([0x61, 0x62], [⟨0, [9, 2, 1]⟩]), .ok ([0x63, 0x64], [])] ∧
    (q.2.read ⟨0, 0, 4, 30⟩ = [0x04, 2, 0x91, 0x43]) := by
  refine ⟨⟨by decide, by decide⟩, ?_, ?_⟩ <;> decide +kernel

/-- Beside `C118_decode`: two delivers in UCS-2 with a character split between them, read into the same buffer. -/
example :
    let m : Mem UInt8 := ⟨1, fun _ _ => 0⟩
    let head : List UInt8 := [0x44, 2, 0x91, 0x21, 0, 8, 0x12, 0x10, 0x21, 0x10, 0x21, 0x10, 0, 8, 5, 0, 3, 9, 2]
    let q := receiveAll (fun s => Buffer.Unmarshal (fun n => n) s MT) ⟨0, 0, 0, 30⟩ [head ++ [1, 0xd8, 0x3d], head ++ [2, 0xde, 0x00]] m
    let kept := q.1.filterMap Except.toOption
    kept.length = 2 ∧ (Model.Alias.Decode (fun n => n) q.2 (kept.map (segmentOf q.2)) []).2 = .ok [0xf0, 0x9f, 0x98, 0x80] := by
  constructor <;> decide +kernel

end Verif.Props
