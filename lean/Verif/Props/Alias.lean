import Verif.Proofs.AliasSegment
import Verif.Proofs.AliasExact
import Verif.Props.Segment

/-! C62 to C64: what `Decode`, `Segment` and `Encode` share with their arguments, their results and each other. -/

namespace Verif.Props
open Verif.Model Verif.Model.Alias Verif.Spec Verif.Proofs Verif.Proofs.Alias

/-- A memory with one array. -/
def mem1 {α : Type} (d : α) (l : List α) : Mem α where
  next := 1
  get _ p := (l[p]?).getD d

/-- The octets of `U+D83D`, `A` and `U+DE00` in one array, and three segments of UCS-2 data with the first, last and
middle two of them.  Only the third slice does not extend to the end of the array. -/
def sharedMem : Mem UInt8 := mem1 0 [0xd8, 0x3d, 0x00, 0x41, 0xde, 0x00]

def sharedSegs : List Seg :=
  [⟨{ FirstOctet := 0, DCS := 8 }, ⟨0, 0, 2, 6⟩⟩, ⟨{ FirstOctet := 0, DCS := 8 }, ⟨0, 4, 2, 2⟩⟩,
    ⟨{ FirstOctet := 0, DCS := 8 }, ⟨0, 2, 2, 4⟩⟩]

/-- C62 is false of `Decode` as stated: it overwrites the user data of the last of these segments, and does not return
their text. -/
theorem C62_decode_counterexample :
    (Model.Alias.Decode (fun n => n) sharedMem sharedSegs []).1.read ⟨0, 2, 2, 4⟩ = [0xde, 0x00] ∧
      sharedMem.read ⟨0, 2, 2, 4⟩ = [0x00, 0x41] ∧
      Model.Sms.Decode (sharedSegs.map (·.load sharedMem)) [] = .ok [0xf0, 0x9f, 0x98, 0x80, 0x41] ∧
      (Model.Alias.Decode (fun n => n) sharedMem sharedSegs []).2 ≠ .ok [0xf0, 0x9f, 0x98, 0x80, 0x41] := by
  decide +kernel

/-- C62 for `Decode`, where no segment's unused capacity contains user data, or unused capacity, of another: the text
is that of the segments and none of them is changed.  In general, only the unused capacity of the segments is
written.  (Partial: slices of one array may overlap.) -/
theorem C62_decode_partial (grow : Nat → Nat) (m m' : Mem UInt8) (segs : List Seg) (opts : List CharsetOpt) (r : M Bytes)
    (ha : ∀ s ∈ segs, Allocated m s.ud) (hs : segs.Pairwise (fun s t => Separate s.ud t.ud))
    (h : Model.Alias.Decode grow m segs opts = (m', r)) :
    r = Model.Sms.Decode (segs.map (·.load m)) opts ∧ (∀ s ∈ segs, s.load m' = s.load m) ∧
      ∀ a p, a < m.next → (∀ s ∈ segs, ¬ Spare s.ud a p) → m'.get a p = m.get a p := by
  unfold Model.Alias.Decode at h
  obtain ⟨m1, ps, e⟩ : ∃ m1 ps, Model.Alias.decodeLoop grow (Model.Sms.decodeOpts opts) segs none m = (m1, ps) := ⟨_, _, rfl⟩
  rw [e] at h
  cases h
  obtain ⟨_, h2, h3⟩ := decodeLoop_refines grow _ segs none m m' ps ha (by intro τ hτ; cases hτ) hs e
  refine ⟨h3, ?_, fun a p h4 h5 => h2 a p h4 (by intro τ hτ; cases hτ) h5⟩
  intro s hsm
  unfold Seg.load
  rw [read_congr (m := m) (m' := m')]
  intro a p hu
  apply h2 a p
  · have := (ha s hsm).1
    have := hu.1
    omega
  · intro τ hτ; cases hτ
  · intro t htm hsp
    obtain ⟨i, hi, rfl⟩ := List.mem_iff_getElem.1 hsm
    obtain ⟨j, hj, rfl⟩ := List.mem_iff_getElem.1 htm
    rcases Nat.lt_trichotomy i j with hij | rfl | hij
    · exact ((List.pairwise_iff_getElem.1 hs i j hi hj hij) a p).2 hsp hu
    · unfold Used Spare at *; omega
    · exact (((List.pairwise_iff_getElem.1 hs j i hj hi hij) a p).1 hsp).1 hu

/-- The octets in order, each slice with capacity limited to its own. -/
def apartSegs : List Seg :=
  [⟨{ FirstOctet := 0, DCS := 8 }, ⟨0, 0, 2, 2⟩⟩, ⟨{ FirstOctet := 0, DCS := 8 }, ⟨0, 4, 2, 2⟩⟩,
    ⟨{ FirstOctet := 0, DCS := 8 }, ⟨0, 2, 2, 2⟩⟩]

example : (∀ s ∈ apartSegs, Allocated sharedMem s.ud) ∧ apartSegs.Pairwise (fun s t => Separate s.ud t.ud) ∧
    (Model.Alias.Decode (fun n => n) sharedMem apartSegs []).2 = .ok [0xf0, 0x9f, 0x98, 0x80, 0x41] := by
  refine ⟨?_, ?_, by decide +kernel⟩
  · intro s hs
    simp only [apartSegs, List.mem_cons, List.not_mem_nil, or_false] at hs
    rcases hs with rfl | rfl | rfl <;> exact ⟨by decide, by decide⟩
  · unfold apartSegs Separate Spare Used
    simp only [List.pairwise_cons, List.mem_cons, List.not_mem_nil, or_false]
    refine ⟨?_, ?_, by simp⟩
    · rintro t (rfl | rfl) a p <;> simp only <;> omega
    · rintro t rfl a p
      simp only
      omega

/-- An array of two information elements. -/
def ieMem : Mem IE := mem1 ⟨0, []⟩ [⟨5, [1, 2, 3, 4]⟩, ⟨9, [7]⟩]

/-- C62 is false of `Segment` as stated: with a template whose header is the first element of a longer one, it
overwrites the second element. -/
theorem C62_segment_counterexample :
    (Model.Alias.Segment (fun n => n) ieMem (mem1 0 (List.replicate 161 65)) (submitT 0 []) ⟨0, 0, 1, 2⟩ ⟨0, 0, 161, 161⟩
      {}).1.read ⟨0, 0, 2, 2⟩ = [⟨5, [1, 2, 3, 4]⟩, ⟨0, [0, 0, 0]⟩] ∧
      ieMem.read ⟨0, 0, 2, 2⟩ = [⟨5, [1, 2, 3, 4]⟩, ⟨9, [7]⟩] := by
  decide +kernel

/-- C62 for `Segment`: the TPDUs are those of `Segment` on values, the message is not written, and of the memory in
which the headers are, at most one element after the header of the template is written, and this only if the template's
header has unused capacity and the message does not fit into one TPDU.  In particular the header of the template is
unchanged, and nothing is written when it has no unused capacity.  (Partial: that element may belong to others.) -/
theorem C62_segment_partial (grow : Nat → Nat) (ies ies' : Mem IE) (m : Mem UInt8) (t : TPDU) (udh msg : Slice) (cfg : SegCfg)
    (r : M Result) (hu : Allocated ies udh) (h : Model.Alias.Segment grow ies m t udh msg cfg = (ies', r)) :
    (r.map fun r => (⟨r.pdus.map (·.load ies' m), r.cr, r.mr⟩ : SegResult)) =
      TPDU.Segment { t with UDH := ies.read udh } (m.read msg) cfg ∧
    ies'.read udh = ies.read udh ∧
    (∀ a p, a < ies.next → ies'.get a p ≠ ies.get a p → a = udh.arr ∧ p = udh.off + udh.len ∧ udh.len < udh.cap) ∧
    ((msg.len : Int) ≤ TPDU.UDBlockSize { t with UDH := ies.read udh } → ies' = ies) := by
  obtain ⟨h1, h2, h3, _⟩ := segment_refines grow ies m t udh msg cfg hu h
  refine ⟨h1, ?_, ?_, fun hb => (h3 hb).1⟩
  · apply read_congr
    intro a p hh
    apply h2 a p
    · have := hu.1; have := hh.1; omega
    · unfold Used at hh; omega
  · intro a p h4 h5
    exact Classical.byContradiction (fun hh => h5 (h2 a p h4 hh))

example : Allocated ieMem ⟨0, 0, 1, 2⟩ ∧ ((Model.Alias.Segment (fun n => n) ieMem (mem1 0 (List.replicate 161 65)) (submitT 0 [])
    ⟨0, 0, 1, 2⟩ ⟨0, 0, 161, 161⟩ {}).2.map fun r => r.pdus.length) = .ok 2 :=
  ⟨⟨by decide, by decide⟩, by decide +kernel⟩

/-- Exactly what `Segment` writes to the memory that exists: when the message is too long for one TPDU and the header of
the template has unused capacity, the element after that header becomes the concatenation element for 0, 0 and 0;
nothing else changes. -/
theorem C62_segment_exact (grow : Nat → Nat) (ies ies' : Mem IE) (m : Mem UInt8) (t : TPDU) (udh msg : Slice) (cfg : SegCfg)
    (r : M Result) (hu : Allocated ies udh) (h : Model.Alias.Segment grow ies m t udh msg cfg = (ies', r))
    (a p : Nat) (ha : a < ies.next) :
    ies'.get a p = if msg.len ≠ 0 ∧ TPDU.UDBlockSize { t with UDH := ies.read udh } < msg.len ∧ udh.len < udh.cap ∧
      a = udh.arr ∧ p = udh.off + udh.len then cfg.ief 0 0 0 else ies.get a p := by
  obtain ⟨_, h2, h3, _⟩ := segment_refines grow ies m t udh msg cfg hu h
  split
  · rename_i hh
    obtain ⟨k1, k2, k3, rfl, rfl⟩ := hh
    exact segment_writes grow ies m t udh msg cfg hu h k1 (by omega) k3
  · rename_i hh
    by_cases k0 : msg.len = 0
    · have : ies' = ies := by
        unfold Model.Alias.Segment at h
        simp only [read_length] at h
        rw [if_pos k0] at h
        cases h
        rfl
      rw [this]
    · by_cases k1 : (msg.len : Int) ≤ TPDU.UDBlockSize { t with UDH := ies.read udh }
      · rw [(h3 k1).1]
      · exact h2 a p ha (fun k => hh ⟨k0, by omega, k.2.2, k.1, k.2.1⟩)

/-! ### C63 -/

/-- C63 is false as stated, whatever the message: the user data of a TPDU is a slice of the message with the capacity
to grow into that of the next TPDU.  Appending one octet to it changes the next TPDU (and the message). -/
theorem C63_user_data_shared (grow grow' : Nat → Nat) (ies ies' : Mem IE) (m : Mem UInt8) (t : TPDU) (udh msg : Slice)
    (cfg : SegCfg) (r : Result) (hm : Allocated m msg) (h : Model.Alias.Segment grow ies m t udh msg cfg = (ies', .ok r))
    (k : Nat) (o o' : Out) (ho : r.pdus[k]? = some o) (ho' : r.pdus[k + 1]? = some o') (hne : m.read o'.ud ≠ []) (x : UInt8) :
    ((m.append grow' o.ud [x]).1.read o'.ud).head? = some x := by
  obtain ⟨h1, h2, h3, h4⟩ := segment_uds grow ies m t udh msg cfg hm.2 h k o o' ho ho'
  have hl : o'.ud.len ≠ 0 := by
    intro h0
    apply hne
    apply List.length_eq_zero_iff.1
    rw [read_length, h0]
  have ha : m.append grow' o.ud [x] = (m.write o.ud.arr (o.ud.off + o.ud.len) [x], { o.ud with len := o.ud.len + 1 }) := by
    unfold Mem.append
    simp only [List.length_singleton]
    rw [if_pos (by omega)]
  rw [ha]
  simp only
  rw [List.head?_eq_getElem?, read_get, if_pos (by omega), h3, h2, ← h1]
  have := write_get_in m o.ud.arr (o.ud.off + o.ud.len) [x] 0 x rfl
  exact congrArg some this

/-- Hence appending to one TPDU changes another: a message in two parts, the user data of the second before and after
`B` is appended to that of the first. -/
theorem C63_counterexample :
    ((Model.Alias.Segment (fun n => n) ieMem (mem1 0 (List.replicate 161 65)) (submitT 0 []) ⟨0, 0, 1, 1⟩ ⟨0, 0, 161, 161⟩
        {}).2.map fun r => match r.pdus with
          | [o, o'] => some ((mem1 0 (List.replicate 161 65)).read o'.ud,
              ((mem1 0 (List.replicate 161 65)).append (fun n => n) o.ud [66]).1.read o'.ud)
          | _ => none) = .ok (some (List.replicate 15 65, 66 :: List.replicate 14 65)) := by
  decide +kernel

/-- C63 for the headers of a message that does not fit into one TPDU: appending to the header of one of the TPDUs
changes neither another one's nor, as values, any of the memory that existed before.  (Partial: not so for the user
data, see above; the only TPDU of a message that fits has the header of the template.) -/
theorem C63_headers_partial (grow grow' : Nat → Nat) (ies ies' : Mem IE) (m : Mem UInt8) (t : TPDU) (udh msg : Slice)
    (cfg : SegCfg) (r : Result) (hu : Allocated ies udh) (h : Model.Alias.Segment grow ies m t udh msg cfg = (ies', .ok r))
    (hbig : TPDU.UDBlockSize { t with UDH := ies.read udh } < (m.read msg).length)
    (i j : Nat) (hij : i ≠ j) (o o' : Out) (ho : r.pdus[i]? = some o) (ho' : r.pdus[j]? = some o') (xs : List IE) :
    (ies'.append grow' o.udh xs).1.read o'.udh = ies'.read o'.udh ∧
      ∀ a p, a < ies.next → (ies'.append grow' o.udh xs).1.get a p = ies'.get a p := by
  rw [read_length] at hbig
  obtain ⟨_, _, _, h4⟩ := segment_refines grow ies m t udh msg cfg hu h
  obtain ⟨h5, h6⟩ := h4 (by omega) r rfl
  have hne : o.udh.arr ≠ o'.udh.arr := by
    obtain ⟨hi, rfl⟩ := List.getElem?_eq_some_iff.1 ho
    obtain ⟨hj, rfl⟩ := List.getElem?_eq_some_iff.1 ho'
    rcases Nat.lt_or_gt_of_ne hij with hlt | hlt
    · exact List.pairwise_iff_getElem.1 h6 i j hi hj hlt
    · exact fun e => List.pairwise_iff_getElem.1 h6 j i hj hi hlt e.symm
  have h7 := h5 o (List.mem_of_getElem? ho)
  have h8 := h5 o' (List.mem_of_getElem? ho')
  have hw : ∀ a p, a ≠ o.udh.arr → a < ies'.next → (ies'.append grow' o.udh xs).1.get a p = ies'.get a p := by
    intro a p ha hn
    unfold Mem.append
    simp only
    split
    · exact write_get _ _ _ _ _ _ (by intro hh; exact ha hh.1)
    · exact write_get _ _ _ _ _ _ (by intro hh; have := hh.1; omega)
  refine ⟨?_, ?_⟩
  · apply read_congr
    intro a p hh
    have := hh.1
    exact hw a p (by omega) (by omega)
  · intro a p ha
    refine hw a p (by omega) ?_
    have := h7.1
    have := h7.2
    omega

example : ((Model.Alias.Segment (fun n => n) ieMem (mem1 0 (List.replicate 161 65)) (submitT 0 []) ⟨0, 0, 1, 1⟩
    ⟨0, 0, 161, 161⟩ {}).2.map fun r => r.pdus.map (fun o => (o.udh.arr, o.ud))) =
    .ok [(2, ⟨0, 0, 146, 161⟩), (3, ⟨0, 146, 15, 15⟩)] := by decide +kernel

/-! ### C64 -/

/-- The options of an encoder created with three charset options: four elements are allocated for them. -/
def threeOpts : Mem CharsetOpt := mem1 .all [.charset [1], .locking [2], .shift [3], .all]

/-- C64 is false as stated: of two calls, each with a charset option of its own, the first uses that of the second. -/
theorem C64_counterexample :
    ((runCalls (fun n => n) [0, 1, 0] threeOpts
      [Call.new ⟨0, 0, 3, 4⟩ [.charset [8]], Call.new ⟨0, 0, 3, 4⟩ [.charset [9]]]).2.map (·.seen)) =
      [some [.charset [1], .locking [2], .shift [3], .charset [9]], none] := by
  decide +kernel

/-- C64 for an encoder whose options have no unused capacity, or when at most one of the concurrent calls has charset
options: whatever the schedule, each call uses the options of the encoder followed by its own, and has throughout
exactly those of them that it has applied so far.  (Partial: see the counterexample.) -/
theorem C64_calls_partial (grow : Nat → Nat) (sched : List Nat) (m : Mem CharsetOpt) (eopts : Slice)
    (ls : List (List CharsetOpt)) (ha : Allocated m eopts)
    (hc : eopts.cap = eopts.len ∨ ∀ (i j : Nat) l l', i ≠ j → ls[i]? = some l → ls[j]? = some l' → l = [] ∨ l' = [])
    (i : Nat) (c : Call) (l : List CharsetOpt) (hl : ls[i]? = some l)
    (hi : (runCalls grow sched m (ls.map (Call.new eopts))).2[i]? = some c) :
    (∀ s, c.seen = some s → s = m.read eopts ++ l) ∧
      ∃ done rest, l = done ++ rest ∧
        (runCalls grow sched m (ls.map (Call.new eopts))).1.read c.eopts = m.read eopts ++ done := by
  have hI : CallsInv (m.read eopts) ls m (ls.map (Call.new eopts)) := by
    refine ⟨by simp, ?_, ?_, ?_⟩
    · intro j d hd
      rw [List.getElem?_map] at hd
      obtain ⟨x, _, rfl⟩ := Option.map_eq_some_iff.1 hd
      exact ha
    · intro j d l' hd hl'
      rw [List.getElem?_map, hl'] at hd
      cases hd
      exact ⟨[], l', rfl, by rw [List.append_nil]; rfl, .inl ⟨rfl, rfl⟩⟩
    · intro j k d f hjk hd hf a p hpd hsp
      rw [List.getElem?_map] at hd hf
      obtain ⟨x, hx, rfl⟩ := Option.map_eq_some_iff.1 hd
      obtain ⟨y, hy, rfl⟩ := Option.map_eq_some_iff.1 hf
      refine ⟨fun hu => ?_, fun hpf hsp' => ?_⟩
      · simp only [Call.new] at hsp hu
        unfold Used Spare at *
        omega
      · rcases hc with hc | hc
        · simp only [Call.new] at hsp
          unfold Spare at hsp
          omega
        · rcases hc j k x y hjk hx hy with rfl | rfl
          · obtain ⟨o, t, ho⟩ := hpd
            simp [Call.new] at ho
          · obtain ⟨o, t, ho⟩ := hpf
            simp [Call.new] at ho
  have hR := calls_run grow _ ls sched m _ hI
  obtain ⟨done, rest, p1, p2, p3⟩ := hR.prog i c l hi hl
  refine ⟨?_, done, rest, p1, p2⟩
  intro s hs
  rcases p3 with ⟨_, q⟩ | ⟨_, _, q⟩
  · rw [q] at hs; cases hs
  · rw [q] at hs; cases hs; rfl

example : (runCalls (fun n => n) [0, 1, 0, 1] threeOpts
    [Call.new ⟨0, 0, 3, 3⟩ [.charset [8]], Call.new ⟨0, 0, 3, 3⟩ [.charset [9]]]).2.map (·.seen) =
    [some [.charset [1], .locking [2], .shift [3], .charset [8]],
      some [.charset [1], .locking [2], .shift [3], .charset [9]]] := by decide +kernel

/-- What C64 exactly requires: every call uses the options of the encoder followed by its own under every schedule if
and only if, at every position for which the encoder's options have unused capacity, the options of no two of the calls
differ. -/
theorem C64_exact (grow : Nat → Nat) (m : Mem CharsetOpt) (eopts : Slice) (ls : List (List CharsetOpt))
    (ha : Allocated m eopts) :
    (∀ (sched : List Nat) (i : Nat) c l s, ls[i]? = some l →
        (runCalls grow sched m (ls.map (Call.new eopts))).2[i]? = some c → c.seen = some s → s = m.read eopts ++ l) ↔
      ∀ (i j : Nat) l l' q x y, i ≠ j → ls[i]? = some l → ls[j]? = some l' → eopts.len + q < eopts.cap → l[q]? = some x →
        l'[q]? = some y → x = y := by
  constructor
  · intro h i j l l' q x y hij hl hl' hq hx hy
    obtain ⟨sched, c, h1, h2⟩ := shared_conflict grow m eopts ls ha i j l l' q x y hij hl hl' hq hx hy
    have h3 := h sched i c l _ hl h1 h2
    rw [List.append_assoc] at h3
    have h4 := congrArg (·[q]?) (List.append_cancel_left h3)
    have hyl := (List.getElem?_eq_some_iff.1 hy).1
    rw [List.getElem?_append_left (by rw [List.length_take]; omega), List.getElem?_take, if_pos (Nat.lt_succ_self q), hy,
      hx] at h4
    exact (Option.some.inj h4).symm
  · intro h sched i c l s hl hi hs
    have hR := shared_run grow eopts _ ls (read_length m eopts) h sched m _ ha.1 (shared_new m eopts ls ha)
    obtain ⟨done, rest, p1, p2, p3⟩ := hR.prog i c l hi hl
    rcases p3 with ⟨_, q⟩ | ⟨_, _, q⟩
    · rw [q] at hs; cases hs
    · rw [q] at hs; cases hs; rfl

/-- Calls with different options on an encoder with room for one more, that differ only in the second: none of them is
disturbed. -/
example : (∀ (i j : Nat) l l' q x y, i ≠ j → [[CharsetOpt.all, .charset [8]], [.all, .charset [9]]][i]? = some l →
      [[CharsetOpt.all, .charset [8]], [.all, .charset [9]]][j]? = some l' → 3 + q < 4 → l[q]? = some x → l'[q]? = some y → x = y) ∧
    (runCalls (fun n => n) [0, 1, 0, 1, 0, 1] threeOpts
      [Call.new ⟨0, 0, 3, 4⟩ [.all, .charset [8]], Call.new ⟨0, 0, 3, 4⟩ [.all, .charset [9]]]).2.map (·.seen) =
    [some [.charset [1], .locking [2], .shift [3], .all, .charset [8]],
      some [.charset [1], .locking [2], .shift [3], .all, .charset [9]]] := by
  refine ⟨?_, by decide +kernel⟩
  intro i j l l' q x y _ hi hj hq hx hy
  have hq : q = 0 := by omega
  subst hq
  have h1 : ∀ (i : Nat) l, [[CharsetOpt.all, .charset [8]], [.all, .charset [9]]][i]? = some l → l[0]? = some .all := by
    intro i l h
    match i with
    | 0 => cases h; rfl
    | 1 => cases h; rfl
    | n + 2 => simp at h
  rw [h1 i l hi] at hx
  rw [h1 j l' hj] at hy
  cases hx
  cases hy
  rfl

end Verif.Props
