import Verif.Model.Cmd
import Verif.Props.Texts
import Verif.Props.PduMode

/-! C66: what the command smsdeliver prints. -/

namespace Verif.Props
open Verif.Model Verif.Model.Collector Verif.Spec Verif.Proofs Verif.Proofs.Coll
open Verif.Spec.Reassembly (Parts)

/-- An argument of the command that spells the octets `b` of a TPDU in hex; with the flag `-p` they are
preceded by the address of the service centre, or the octet 0 for none. -/
def Argument (pm : Bool) (a b : List UInt8) : Prop :=
  if pm then HexText a (0 :: b) ∨
    ∃ (toa : UInt8) (addr : List UInt8), addr.length ≤ 254 ∧ HexText a (UInt8.ofNat (addr.length + 1) :: toa :: (addr ++ b))
  else HexText a b

/-- The arguments of the command spell the octets of the TPDUs, in order. -/
def Arguments (pm : Bool) (args sent : List (List UInt8)) : Prop :=
  args.length = sent.length ∧ ∀ p ∈ args.zip sent, Argument pm p.1 p.2

/-! Helpers. -/

theorem argument_octets {pm : Bool} {a b : List UInt8} (h : Argument pm a b) : SmsDeliver.octets pm a = .ok b := by
  unfold Argument at h
  unfold SmsDeliver.octets
  cases pm with
  | false =>
    rw [(hex_iff _ a (Nat.le_refl _) b).2 (by simpa using h)]
    rfl
  | true =>
    rw [if_pos rfl] at h
    rcases h with h | ⟨toa, addr, hl, h⟩
    · rw [(hex_iff _ a (Nat.le_refl _) _).2 h]
      show (do let pdu ← PDU.UnmarshalBinary (0 :: b); return pdu.TPDU : M _) = _
      rw [C56_no_smsc]
      rfl
    · rw [(hex_iff _ a (Nat.le_refl _) _).2 h]
      obtain ⟨ds, h1, _⟩ := C56_smsc toa addr b hl
      show (do let pdu ← PDU.UnmarshalBinary (UInt8.ofNat (addr.length + 1) :: toa :: (addr ++ b)); return pdu.TPDU : M _) = _
      rw [h1]
      rfl

/-- A message that is returned complete. -/
def Whole (parts : Parts) : Prop := ∃ q qs text, parts = (q :: qs).map some ∧ Sms.Decode (q :: qs) [] = .ok text

/-- What is printed of it. -/
def lineOf (parts : Parts) : SmsDeliver.Line :=
  match parts.filterMap id with
  | [] => .message [] []
  | q :: qs => .message q.OA.Number (match Sms.Decode (q :: qs) [] with
    | .ok text => text
    | .error _ => [])

theorem ptrs_of_pdus (d : List (Option Ptr)) : ∀ qs : List TPDU, pdus d = qs.map some →
    ∃ ptrs : List Ptr, d = ptrs.map some ∧ ptrs.map (·.pdu) = qs := by
  induction d with
  | nil => intro qs h; cases qs <;> simp [pdus] at h; exact ⟨[], rfl, rfl⟩
  | cons x d ih =>
    intro qs h
    cases qs with
    | nil => simp [pdus] at h
    | cons q qs =>
      simp only [pdus, List.map_cons, List.cons.injEq] at h
      obtain ⟨ptrs, h1, h2⟩ := ih qs h.2
      cases x with
      | none => cases h.1
      | some p =>
        refine ⟨p :: ptrs, by rw [h1]; rfl, ?_⟩
        rw [List.map_cons, h2]
        have := h.1
        simp only [Option.map_some, Option.some.injEq] at this
        rw [this]

theorem takeWhile_some (ptrs : List Ptr) : ((ptrs.map some).takeWhile Option.isSome).filterMap (fun p => p.map (·.pdu)) =
    ptrs.map (·.pdu) := by
  induction ptrs with
  | nil => rfl
  | cons p ptrs ih =>
    rw [List.map_cons, List.takeWhile_cons_of_pos rfl, List.filterMap_cons]
    simp only [Option.map_some]
    rw [ih]
    rfl

theorem report_whole (d : List (Option Ptr)) (h : Whole (pdus d)) : SmsDeliver.report d none = .ok [lineOf (pdus d)] := by
  obtain ⟨q, qs, text, h1, h2⟩ := h
  obtain ⟨ptrs, hd, hp⟩ := ptrs_of_pdus d (q :: qs) h1
  have hline : lineOf (pdus d) = .message q.OA.Number text := by
    unfold lineOf
    rw [h1, List.filterMap_map]
    have : (q :: qs).filterMap (id ∘ some) = q :: qs := by simp
    rw [this]
    simp only [h2]
  rw [hline]
  cases ptrs with
  | nil => simp at hp
  | cons p ptrs =>
    have hpq : p.pdu = q := by simp only [List.map_cons, List.cons.injEq] at hp; exact hp.1
    subst hd
    unfold SmsDeliver.report
    simp only
    rw [if_neg (by simp)]
    have hdec : SmsDeliver.decodePtrs ((p :: ptrs).map some) = .ok text := by
      unfold SmsDeliver.decodePtrs
      simp only
      rw [takeWhile_some, if_pos (by simp), hp, h2]
    rw [hdec]
    simp only [List.map_cons, idx_zero_cons, ok_bind, List.nil_append, hpq, pure_ok]

theorem report_none : SmsDeliver.report [] none = .ok [] := rfl

/-- The loop of the command is a history of the Collector. -/
theorem loop_run (pm : Bool) : ∀ (args : List (List UInt8)) (sent : List (List UInt8)) (ts : List TPDU) (s s' : State) (os : List Output),
    Arguments pm args sent → sent.map (fun b => Sms.Unmarshal b MT) = ts.map .ok →
    run s (ts.map .collect) = .ok (s', os) → (∀ d err, .returned d err ∈ os → err = none) →
    (∀ parts ∈ returns os, Whole parts) →
    SmsDeliver.loop pm s args = .ok ((returns os).map lineOf ++
      (Pipes s').map fun kp => .incomplete kp.1 ((deref s' kp.2).map fun p => p.map (·.pdu))) := by
  intro args
  induction args with
  | nil =>
    intro sent ts s s' os ha hu hr _ _
    have : sent = [] := List.eq_nil_of_length_eq_zero (by simpa using ha.1.symm)
    subst this
    cases ts with
    | cons t ts => simp at hu
    | nil => cases hr; rfl
  | cons a args ih =>
    intro sent ts s s' os ha hu hr he hw
    cases sent with
    | nil => exact absurd ha.1 (by simp)
    | cons b sent =>
      cases ts with
      | nil => simp at hu
      | cons t ts =>
        simp only [List.map_cons, List.cons.injEq] at hu
        rw [List.map_cons, run] at hr
        obtain ⟨⟨s1, o⟩, hc, hr⟩ := bind_eq_ok.1 hr
        simp only at hr
        obtain ⟨⟨s2, os'⟩, hr', hr⟩ := bind_eq_ok.1 hr
        cases hr
        have ha' : Arguments pm args sent := ⟨by simpa using ha.1, fun p hp => ha.2 p (by simp [hp])⟩
        have ih := ih sent ts s1 s2 os' ha' hu.2 hr' (fun d err h => he d err (by simp [h])) (fun parts hp => hw parts (by
          unfold returns at *
          rw [List.filterMap_cons]
          split
          · exact hp
          · exact List.mem_cons_of_mem _ hp))
        rw [SmsDeliver.loop, argument_octets (ha.2 (a, b) (by simp))]
        simp only
        rw [hu.1]
        simp only
        change Collect s t = .ok (s1, o) at hc
        rw [hc]
        show (match o with
          | .returned d err => do
            let lines ← SmsDeliver.report d err
            let rest ← SmsDeliver.loop pm s1 args
            return lines ++ rest
          | _ => SmsDeliver.loop pm s1 args : M _) = _
        cases o with
        | silent => exact ih
        | handled d => exact ih
        | returned d err =>
          have herr : err = none := he d err (by simp)
          subst herr
          simp only
          by_cases hd : d = []
          · subst hd
            rw [report_none, ih]
            rfl
          · have hret : returns (.returned d none :: os') = pdus d :: returns os' := by
              unfold returns
              rw [List.filterMap_cons]
              simp only [ne_eq, hd, not_false_iff, if_true]
            rw [report_whole d (hw _ (by rw [hret]; simp)), ih, hret]
            rfl

/-- The octets of all TPDUs of the messages. -/
theorem items_wire (dopts : List CharsetOpt) (items : List Item) (h : ∀ i ∈ items, Good dopts i)
    (ht : ∀ i ∈ items, i.type = SmsDeliver) :
    ∃ wire : List (List UInt8), (items.map (·.pdus)).flatten.map TPDU.MarshalBinary = wire.map .ok ∧
      wire.map (fun b => Sms.Unmarshal b MT) = (items.map (·.qs)).flatten.map .ok := by
  induction items with
  | nil => exact ⟨[], rfl, rfl⟩
  | cons i items ih =>
    obtain ⟨wire, w1, w2⟩ := ih (fun j hj => h j (by simp [hj])) (fun j hj => ht j (by simp [hj]))
    have hi := h i (by simp)
    obtain ⟨wi, v1, v2⟩ := hi.sent
    refine ⟨wi ++ wire, ?_, ?_⟩
    · rw [List.map_cons, List.flatten_cons, List.map_append, List.map_append, v1, w1]
    · rw [List.map_cons, List.flatten_cons, List.map_append, List.map_append, w2, ← v2]
      congr 1
      have key : ∀ (ps : List TPDU) (ws : List (List UInt8)), ps.length = ws.length → (∀ p ∈ ps, p.Direction = MT) →
          ws.map (fun b => Sms.Unmarshal b MT) = (ps.zip ws).map (fun pw => Sms.Unmarshal pw.2 pw.1.Direction) := by
        intro ps
        induction ps with
        | nil => intro ws h _; cases ws <;> simp at h; rfl
        | cons p ps ih =>
          intro ws h hp
          cases ws with
          | nil => simp at h
          | cons w ws =>
            rw [List.map_cons, List.zip_cons_cons, List.map_cons, ih ws (by simpa using h) (fun p' h' => hp p' (by simp [h'])),
              hp p (by simp)]
      refine key i.pdus wi (by simpa using congrArg List.length v1) ?_
      intro p hp
      rw [hi.direction p hp, ht i (by simp)]
      rfl

theorem unmarshal_perm (sent wire : List (List UInt8)) (hp : sent.Perm wire) (qs : List TPDU)
    (h : wire.map (fun b => Sms.Unmarshal b MT) = qs.map .ok) :
    ∃ ts : List TPDU, sent.map (fun b => Sms.Unmarshal b MT) = ts.map .ok ∧ ts.Perm qs := by
  have hm := hp.map (fun b => Sms.Unmarshal b MT)
  rw [h] at hm
  generalize sent.map (fun b => Sms.Unmarshal b MT) = l at hm
  refine ⟨l.filterMap (fun x => match x with | .ok t => some t | .error _ => none), ?_, ?_⟩
  · have hall : ∀ x ∈ l, ∃ t, x = .ok t := by
      intro x hx
      obtain ⟨t, _, rfl⟩ := List.mem_map.1 (hm.mem_iff.1 hx)
      exact ⟨t, rfl⟩
    clear hm
    induction l with
    | nil => rfl
    | cons x l ih =>
      obtain ⟨t, rfl⟩ := hall x (by simp)
      rw [List.filterMap_cons]
      simp only
      rw [List.map_cons, ← ih (fun y hy => hall y (by simp [hy]))]
  · have := hm.filterMap (fun x : M TPDU => match x with | .ok t => some t | .error _ => none)
    refine this.trans (List.Perm.of_eq ?_)
    rw [List.filterMap_map]
    exact List.filterMap_some

/-- What the command prints of messages that arrive. -/
theorem items_printed (pm : Bool) (options : List Model.Sms.EncoderOption)
    (calls : List (List UInt8 × List Model.Sms.EncoderOption)) (items : List Item)
    (h1 : items.map (·.pdus) = encodes (Sms.NewEncoder options) calls) (h3 : ∀ i ∈ items, Good [] i)
    (hty : ∀ i ∈ items, i.type = SmsDeliver)
    (hsize : ∀ pdus ∈ encodes (Sms.NewEncoder options) calls, pdus.length ≤ 255)
    (hmany : ((encodes (Sms.NewEncoder options) calls).filter (fun pdus => 2 ≤ pdus.length)).length ≤ 256) :
    ∃ wire : List (List UInt8), (encodes (Sms.NewEncoder options) calls).flatten.map TPDU.MarshalBinary = wire.map .ok ∧
      ∀ sent args, sent.Perm wire → Arguments pm args sent →
        ∃ lines, SmsDeliver.main pm args = .ok lines ∧
          lines.Perm (items.map (fun i => .message i.address.Number i.text)) := by
  obtain ⟨wire, w1, w2⟩ := items_wire [] items h3 hty
  refine ⟨wire, by rw [← h1]; exact w1, ?_⟩
  intro sent args hs ha
  obtain ⟨ts, t1, t2⟩ := unmarshal_perm sent wire hs _ w2
  obtain ⟨s, os, r1, r2, r3, r4⟩ := items_collected false false options [] calls items h1 h3 hsize hmany ts t2
  -- every item is a message
  have hitem : ∀ i ∈ items, ∃ q qs, i.qs = q :: qs := by
    intro i hi
    have hc := (h3 i hi).complete (hsize _ (by rw [← h1]; exact List.mem_map.2 ⟨i, hi, rfl⟩))
    match hq : i.qs with
    | [] => rw [hq] at hc; cases hc
    | q :: qs => exact ⟨q, qs, rfl⟩
  have hwhole : ∀ parts ∈ returns os, Whole parts := by
    intro parts hp
    obtain ⟨i, hi, rfl⟩ := List.mem_map.1 (r2.mem_iff.1 hp)
    obtain ⟨q, qs, hq⟩ := hitem i hi
    exact ⟨q, qs, i.text, by rw [hq], by rw [← hq]; exact (h3 i hi).dec⟩
  refine ⟨_, loop_run pm args sent ts _ s os ha t1 r1 r3 hwhole, ?_⟩
  rw [r4, List.map_nil, List.append_nil]
  refine (r2.map lineOf).trans (List.Perm.of_eq ?_)
  rw [List.map_map]
  apply List.map_congr_left
  intro i hi
  obtain ⟨q, qs, hq⟩ := hitem i hi
  have hr := (h3 i hi).route q (by rw [hq]; simp)
  have hoa : q.OA = i.address := by
    have := hr.2
    unfold peer at this
    rw [hr.1, hty i hi, if_neg (by decide)] at this
    exact this
  show lineOf (i.qs.map some) = .message i.address.Number i.text
  unfold lineOf
  rw [List.filterMap_map]
  have : i.qs.filterMap (id ∘ some) = q :: qs := by rw [hq]; simp
  rw [this]
  simp only
  rw [← hq, (h3 i hi).dec, hoa]

/-- C66, partial: texts are encoded by one encoder as SMS-DELIVERs, with options that may differ from call to
call, and the TPDUs are marshalled.  Given these TPDUs in any order, each spelled in hex, with `-p` after any
address of a service centre, the command prints each message once, with the number of its originator, and
nothing else.  A text is sent in at most 255 TPDUs, and at most 256 of the texts need more than one.  Missing:
the texts that C38 and C39 exclude. -/
theorem C66_deliver_partial (pm : Bool) (options : List Model.Sms.EncoderOption)
    (calls : List (List UInt8 × List Model.Sms.EncoderOption))
    (hcalls : ∀ c ∈ calls, Conveyable (Sms.NewEncoder options) [] c.1 c.2)
    (htype : ∀ c ∈ calls, (callTemplate (Sms.NewEncoder options) c.2).SmsType = SmsDeliver)
    (hsize : ∀ pdus ∈ encodes (Sms.NewEncoder options) calls, pdus.length ≤ 255)
    (hmany : ((encodes (Sms.NewEncoder options) calls).filter (fun pdus => 2 ≤ pdus.length)).length ≤ 256) :
    ∃ wire : List (List UInt8), (encodes (Sms.NewEncoder options) calls).flatten.map TPDU.MarshalBinary = wire.map .ok ∧
      ∀ sent args, sent.Perm wire → Arguments pm args sent →
        ∃ lines, SmsDeliver.main pm args = .ok lines ∧
          lines.Perm (calls.map (fun c => .message (callTemplate (Sms.NewEncoder options) c.2).OA.Number c.1)) := by
  obtain ⟨items, h1, h2, h3⟩ := items_of [] calls (Sms.NewEncoder options) hcalls
  have hty : ∀ i ∈ items, i.type = SmsDeliver := by
    intro i hi
    have : (i.text, i.type, i.address) ∈ calls.map (fun c => (c.1, (callTemplate (Sms.NewEncoder options) c.2).SmsType,
        peer (callTemplate (Sms.NewEncoder options) c.2))) := by
      rw [← h2]; exact List.mem_map.2 ⟨i, hi, rfl⟩
    obtain ⟨c, hc, he⟩ := List.mem_map.1 this
    simp only [Prod.mk.injEq] at he
    rw [← he.2.1]
    exact htype c hc
  obtain ⟨wire, w1, w2⟩ := items_printed pm options calls items h1 h3 hty hsize hmany
  refine ⟨wire, w1, ?_⟩
  intro sent args hs ha
  obtain ⟨lines, l1, l2⟩ := w2 sent args hs ha
  refine ⟨lines, l1, l2.trans (List.Perm.of_eq ?_)⟩
  have hlines : items.map (fun i => SmsDeliver.Line.message i.address.Number i.text) =
      (items.map (fun i => (i.text, i.type, i.address))).map (fun x => .message x.2.2.Number x.1) := by
    rw [List.map_map]
    rfl
  rw [hlines, h2, List.map_map]
  apply List.map_congr_left
  intro c hc
  show SmsDeliver.Line.message (peer (callTemplate (Sms.NewEncoder options) c.2)).Number c.1 = _
  unfold peer
  rw [if_neg (by rw [htype c hc]; decide)]

theorem deliver_call (time : GoTime) (digits : List UInt8) (hd : Digits digits) :
    callTemplate (Sms.NewEncoder [.template { SCTS := time }]) [Sms.From digits] = { SCTS := time, OA := ⟨0x91, digits⟩ } ∧
      callCharsets (Sms.NewEncoder [.template { SCTS := time }]) [Sms.From digits] = [] ∧
      (⟨0x91, digits⟩ : Address).Number = 0x2b :: digits := by
  have hplus : digits.head? ≠ some 0x2b := by
    intro h
    have : (0x2b : UInt8) ∈ digits := by
      cases digits with
      | nil => cases h
      | cons x xs => cases h; simp
    exact absurd (hd _ this) (by decide)
  have hnum : Address.NewFromNumber digits = ⟨0x91, digits⟩ := (C57_number digits hplus).2.2.1
  have henc : [Sms.From digits].foldl Model.Sms.Encoder.apply (Sms.NewEncoder [.template { SCTS := time }]) =
      ⟨[], { SCTS := time, OA := ⟨0x91, digits⟩ }, Model.Sms.newCounter, Model.Sms.newCounter⟩ := by
    rw [← hnum]
    rfl
  exact ⟨by unfold callTemplate; rw [henc], by unfold callCharsets; rw [henc], by rw [← hnum]; exact (C57_number digits hplus).1⟩

theorem conveyable_deliver (time : GoTime) (ht : TimeOk time) (digits text : List UInt8) (hd : Digits digits) (hl : digits.length ≤ 255)
    (hesc : InSeptets [] text → 0x1b ∉ text) (hne : text ≠ []) (hutf : ∃ rs, (∀ r ∈ rs, Scalar r) ∧ text = Unicode.encodeRunes rs) :
    Conveyable (Sms.NewEncoder [.template { SCTS := time }]) [] text [Sms.From digits] ∧
      callTemplate (Sms.NewEncoder [.template { SCTS := time }]) [Sms.From digits] = { SCTS := time, OA := ⟨0x91, digits⟩ } ∧
      (⟨0x91, digits⟩ : Address).Number = 0x2b :: digits := by
  obtain ⟨ht', hc, hn⟩ := deliver_call time digits hd
  refine ⟨?_, ht', hn⟩
  constructor <;> (try simp only [ht', hc])
  · exact .deliver rfl (by show FirstOctet.MTI 0 = 0; decide) (.inl ⟨by show ((0x91 : UInt8) >>> 4) &&& 0x07 ≠ 5; decide, hd, hl⟩) ht
  · exact Nat.zero_le _
  · show FirstOctet.UDHI 0 = true ↔ ([] : UDH) ≠ []
    decide
  · rfl
  · show (DCS.Alphabet 0).1 = .a7Bit
    decide
  · intro a ha
    cases ha <;> decide
  · exact (C38_matching []).1
  · intro _ ie hie; cases hie
  · exact hesc
  · exact hutf
  · exact hne

/-- C66, partial: the plain use.  One encoder with a template that has the time the service centre received the
messages encodes texts from international numbers of up to 255 digits.  Missing: the texts with an escape that
are sent in septets, for which it is false. -/
theorem C66_plain_partial (pm : Bool) (time : GoTime) (ht : TimeOk time) (msgs : List (List UInt8 × List UInt8))
    (hmsgs : ∀ digits text, (digits, text) ∈ msgs → Digits digits ∧ digits.length ≤ 255 ∧ text ≠ [] ∧
      (InSeptets [] text → 0x1b ∉ text) ∧ ∃ rs, (∀ r ∈ rs, Scalar r) ∧ text = Unicode.encodeRunes rs) :
    let pdus := encodes (Sms.NewEncoder [.template { SCTS := time }]) (msgs.map (fun m => (m.2, [Sms.From m.1])))
    (∀ ps ∈ pdus, ps.length ≤ 255) → (pdus.filter (fun ps => 2 ≤ ps.length)).length ≤ 256 →
    ∃ wire : List (List UInt8), pdus.flatten.map TPDU.MarshalBinary = wire.map .ok ∧
      ∀ sent args, sent.Perm wire → Arguments pm args sent →
        ∃ lines, SmsDeliver.main pm args = .ok lines ∧ lines.Perm (msgs.map (fun m => .message (0x2b :: m.1) m.2)) := by
  intro pdus h1 h2
  have key : ∀ m ∈ msgs, Conveyable (Sms.NewEncoder [.template { SCTS := time }]) [] m.2 [Sms.From m.1] ∧
      callTemplate (Sms.NewEncoder [.template { SCTS := time }]) [Sms.From m.1] = { SCTS := time, OA := ⟨0x91, m.1⟩ } ∧
      (⟨0x91, m.1⟩ : Address).Number = 0x2b :: m.1 := by
    intro m hm
    obtain ⟨g1, g2, g3, g4, g5⟩ := hmsgs m.1 m.2 hm
    exact conveyable_deliver time ht m.1 m.2 g1 g2 g4 g3 g5
  obtain ⟨wire, w1, w2⟩ := C66_deliver_partial pm [.template { SCTS := time }] (msgs.map (fun m => (m.2, [Sms.From m.1])))
    (by
      intro c hc
      obtain ⟨m, hm, rfl⟩ := List.mem_map.1 hc
      exact (key m hm).1)
    (by
      intro c hc
      obtain ⟨m, hm, rfl⟩ := List.mem_map.1 hc
      show (callTemplate _ [Sms.From m.1]).SmsType = _
      rw [(key m hm).2.1]
      show smsType (FirstOctet.MTI 0) MT = SmsDeliver
      decide) h1 h2
  refine ⟨wire, w1, ?_⟩
  intro sent args hs ha
  obtain ⟨lines, l1, l2⟩ := w2 sent args hs ha
  refine ⟨lines, l1, l2.trans (List.Perm.of_eq ?_)⟩
  rw [List.map_map]
  apply List.map_congr_left
  intro m hm
  show SmsDeliver.Line.message (callTemplate _ [Sms.From m.1]).OA.Number m.2 = _
  rw [(key m hm).2.1]
  show SmsDeliver.Line.message (⟨0x91, m.1⟩ : Address).Number m.2 = _
  rw [(key m hm).2.2]

/-- A time of the examples. -/
def exSCTS : GoTime := ⟨1504149714, 0, 28800⟩

/-- The TPDUs for the texts, marshalled. -/
def exWire (msgs : List (List UInt8 × List UInt8)) : List (M (List UInt8)) :=
  (encodes (Sms.NewEncoder [.template { SCTS := exSCTS }]) (msgs.map (fun m => (m.2, [Sms.From m.1])))).flatten.map TPDU.MarshalBinary

/-- Beside C66: a text in two TPDUs and a short one from another number meet the hypotheses, and the command
prints them. -/
example : TimeOk exSCTS ∧
    (∀ digits text, (digits, text) ∈ [([0x31], List.replicate 161 0x41), ([0x32, 0x33], [0x42, 0xc3, 0xa9])] →
      Digits digits ∧ digits.length ≤ 255 ∧ text ≠ [] ∧ (InSeptets [] text → 0x1b ∉ text) ∧
      ∃ rs, (∀ r ∈ rs, Scalar r) ∧ text = Unicode.encodeRunes rs) ∧
    (encodes (Sms.NewEncoder [.template { SCTS := exSCTS }]) [(List.replicate 161 0x41, [Sms.From [0x31]]), ([0x42, 0xc3, 0xa9], [Sms.From [0x32, 0x33]])]).map
      List.length = [2, 1] ∧
    SmsDeliver.main false (((exWire [([0x31], List.replicate 161 0x41), ([0x32, 0x33], [0x42, 0xc3, 0xa9])]).map
        (fun b => Hex.EncodeToString (b.toOption.getD []))).reverse) =
      .ok [.message [0x2b, 0x32, 0x33] [0x42, 0xc3, 0xa9], .message [0x2b, 0x31] (List.replicate 161 0x41)] := by
  refine ⟨⟨rfl, by decide +kernel, by decide +kernel, 32, by decide, by decide, by decide⟩, ?_, by decide +kernel, by decide +kernel⟩
  intro digits text h
  simp only [List.mem_cons, Prod.mk.injEq, List.not_mem_nil, or_false] at h
  rcases h with ⟨rfl, rfl⟩ | ⟨rfl, rfl⟩
  · refine ⟨by unfold Digits; decide, by decide, by decide, fun _ => by decide, List.replicate 161 0x41, ?_, by decide +kernel⟩
    intro r hr
    rw [(List.mem_replicate.1 hr).2]
    unfold Scalar; decide
  · refine ⟨by unfold Digits; decide, by decide, by decide, fun _ => by decide, [0x42, 0xe9], ?_, by decide⟩
    intro r hr
    simp only [List.mem_cons, List.not_mem_nil, or_false] at hr
    rcases hr with rfl | rfl <;> (unfold Scalar; decide)

/-- C66 is false of a text with an escape: ESC "e" is printed as a euro sign. -/
theorem C66_counterexample :
    ∃ b, exWire [([0x31], [0x1b, 0x65])] = [.ok b] ∧
      SmsDeliver.main false [Hex.EncodeToString b] = .ok [.message [0x2b, 0x31] [0xe2, 0x82, 0xac]] :=
  ⟨[0x00, 0x01, 0x91, 0xf1, 0x00, 0x00, 0x71, 0x80, 0x13, 0x11, 0x12, 0x45, 0x23, 0x02, 0x9b, 0x32], by decide +kernel, by decide +kernel⟩

end Verif.Props
