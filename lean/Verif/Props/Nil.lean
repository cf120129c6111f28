import Verif.Proofs.Nil
import Verif.Props.SmsDecode
import Verif.Props.Collector2

/-! C126: asking `IsCompleteMessage` and `Decode` about what a Collector hands out, which may have nil pointers in it. -/

namespace Verif.Props

open Verif.Model Verif.Model.Collector Verif.Spec Verif.Proofs Verif.Proofs.Coll

/-- C126: on slices without nil pointers both functions are those of C45-C47. -/
theorem C126_present (l : List TPDU) (options : List CharsetOpt) :
    Model.Sms.DecodePtrs (l.map some) options = Model.Sms.Decode l options ∧
    Model.Sms.IsCompleteMessagePtrs (l.map some) = .ok (Model.Sms.IsCompleteMessage l) := by
  refine ⟨Nil.decodeLoop_map _ _ _, ?_⟩
  cases l with
  | nil => rfl
  | cons s ss =>
    have hm := Nil.completeLoop_map (l := s :: ss) (i := 0)
    simp only [List.map_cons] at hm
    simp only [List.map_cons, Model.Sms.IsCompleteMessagePtrs, Model.Sms.IsCompleteMessage, hm]
    cases s.ConcatInfo with
    | none => simp
    | some base => simp only [List.length_cons, List.length_map]; split <;> rfl

/-- C126: `Decode` of a slice with a nil pointer returns an error, if the user data of a UCS-2 TPDU before the first nil
pointer has an odd length, and dereferences the nil pointer otherwise. -/
theorem C126_decode (before : List TPDU) (after : List (Option TPDU)) (options : List CharsetOpt) :
    Model.Sms.DecodePtrs (before.map some ++ none :: after) options =
      if ∃ s ∈ before, s.Alphabet.1 = .ucs2 ∧ s.UD.length % 2 = 1 then fail .ucs2InvalidLength else panicM .nil := by
  have ho := Sms.decodeLoop_outcome (Model.Sms.decodeOpts options) before [] rfl
  rw [show Sms.left (Ucs2.Decode []) = [] from rfl] at ho
  unfold Model.Sms.DecodePtrs
  rw [Nil.decodeLoop_nil]
  rcases ho with ⟨h1, h2⟩ | ⟨h1, hev, h3⟩
  · rw [h2, if_pos h1]; rfl
  · rw [if_neg (by rintro ⟨s, hs, ha, ho⟩; have := h1 s hs ha; omega)]
    rcases h3 with ⟨_, t, h4⟩ | ⟨e', h3, h4⟩
    · rw [h4]; rfl
    · have : Ucs2.Decode (Sms.pendingFrom [] before) = ⟨(Ucs2.Decode (Sms.pendingFrom [] before)).runes, some e'⟩ := by
        rw [← h3]
      obtain ⟨_, _, _, _, _, _, rfl⟩ := (decode_err_iff _ _ _ hev).mp this
      rw [h4]; rfl

/-- C126: `IsCompleteMessage` of a slice with a nil pointer dereferences it, if the TPDUs before the first nil pointer
are the first ones of one message of as many TPDUs as the slice has, and returns false otherwise. -/
theorem C126_complete (before : List TPDU) (after : List (Option TPDU)) (d : List (Option TPDU))
    (hd : d = before.map some ++ none :: after) :
    ((∃ ref, ∀ (i : Nat) (s : TPDU), before[i]? = some s → s.ConcatInfo = some ⟨d.length, i + 1, ref⟩) →
      Model.Sms.IsCompleteMessagePtrs d = panicM .nil) ∧
    ((¬ ∃ ref, ∀ (i : Nat) (s : TPDU), before[i]? = some s → s.ConcatInfo = some ⟨d.length, i + 1, ref⟩) →
      Model.Sms.IsCompleteMessagePtrs d = .ok false) := by
  cases before with
  | nil =>
    subst hd
    exact ⟨fun _ => rfl, fun h => absurd ⟨0, by simp⟩ h⟩
  | cons s ss =>
    have hlen : 2 ≤ d.length := by rw [hd]; simp; omega
    have hm := fun n r => Nil.completeLoop_nil n r (s :: ss) after 0
    rw [← hd] at hm
    have hu : Model.Sms.IsCompleteMessagePtrs d = (match s.ConcatInfo with
        | none => .ok (d.length = 1)
        | some base => if base.segments ≠ d.length then .ok false
          else Model.Sms.completePtrLoop base.segments base.mref d 0) := by
      rw [hd]; rfl
    rw [hu]
    cases hc : s.ConcatInfo with
    | none =>
      refine ⟨?_, ?_⟩
      · rintro ⟨r, h⟩
        have := h 0 s rfl
        rw [hc] at this; cases this
      · intro _
        simp only [show d.length ≠ 1 by omega, decide_false]
    | some base =>
      simp only [hm]
      by_cases hb : base.segments = d.length
      · rw [if_neg (by simpa using hb), hb]
        refine ⟨?_, ?_⟩
        · rintro ⟨r, h⟩
          have h0 := h 0 s rfl
          rw [hc] at h0
          simp only [Option.some.injEq] at h0
          subst h0
          have : Model.Sms.completeLoop d.length r (s :: ss) 0 = true := by
            rw [Sms.completeLoop_iff]
            intro k t ht
            simpa using h k t ht
          simp only [this]; rfl
        · intro h
          cases hl : Model.Sms.completeLoop d.length base.mref (s :: ss) 0 with
          | false => rfl
          | true =>
            refine absurd ⟨base.mref, ?_⟩ h
            intro k t ht
            simpa using (Sms.completeLoop_iff _ _ _ _).1 hl k t ht
      · rw [if_pos hb]
        refine ⟨?_, fun _ => rfl⟩
        rintro ⟨r, h⟩
        have h0 := h 0 s rfl
        rw [hc] at h0
        simp only [Option.some.injEq] at h0
        exact absurd (by rw [h0]) hb

/-- Part of a message, with nil pointers in place of the rest, as the Collector keeps it. -/
theorem partly_asked {m : Ident} {d : List (Option Ptr)} (hlen : d.length = m.count) (hn : none ∈ d)
    (hs : ∀ (j : Nat) (ptr : Ptr), d[j]? = some (some ptr) → SegmentOf m (j + 1) ptr.pdu) (options : List CharsetOpt) :
    Model.Sms.IsCompleteMessagePtrs (pdus d) = panicM .nil ∧
    (Model.Sms.DecodePtrs (pdus d) options = panicM .nil ∨ Model.Sms.DecodePtrs (pdus d) options = fail .ucs2InvalidLength) := by
  obtain ⟨l, rest, rfl⟩ := Nil.split_nil hn
  have hp : pdus (l.map some ++ none :: rest) = (l.map (·.pdu)).map some ++ none :: pdus rest := by
    simp [pdus]
  refine ⟨(C126_complete _ _ _ hp).1 ⟨m.ref, ?_⟩, ?_⟩
  · intro i s hi
    have hpl : (pdus (l.map some ++ none :: rest)).length = m.count := by rw [← hlen]; simp [pdus]
    rw [hpl]
    simp only [List.getElem?_map, Option.map_eq_some_iff] at hi
    obtain ⟨ptr, h1, rfl⟩ := hi
    have hil : i < l.length := (List.getElem?_eq_some_iff.1 h1).1
    exact (hs i ptr (by rw [List.getElem?_append_left (by simpa using hil), List.getElem?_map, h1]; rfl)).1.info
  · rw [hp, C126_decode]
    split
    · exact .inr rfl
    · exact .inl rfl

/-- C126, partial: what `Collect` returns can be asked about: no pointer is nil, and `IsCompleteMessage` says that
they are complete, except for one TPDU that says it is the only segment, or one of none, of a message, where the number
of the segment, or the number of segments, is not 1.  Missing, because false: the same of what the expiry handler is
given and of what `Pipes` returns. -/
theorem C126_returned_partial (timeout handler : Bool) (es : List Event) (hes : ∀ e ∈ es, FineEvent e) (s : State) (os : List Output)
    (h : run (New timeout handler) es = .ok (s, os)) (c : Nat) (d : List (Option Ptr)) (err : Option Err)
    (hr : (replies os)[c]? = some (d, err)) (hd : d ≠ []) (options : List CharsetOpt) :
    ∃ l, pdus d = l.map some ∧ Model.Sms.DecodePtrs (pdus d) options = Model.Sms.Decode l options ∧
      (Model.Sms.IsCompleteMessagePtrs (pdus d) = .ok true ∨
        Model.Sms.IsCompleteMessagePtrs (pdus d) = .ok false ∧
          ∃ pdu ci, l = [pdu] ∧ pdu.ConcatInfo = some ci ∧ (ci.segments = 0 ∨ ci.segments = 1 ∧ ci.seqno ≠ 1)) := by
  obtain ⟨_, hcase⟩ := C49_complete timeout handler es hes s os h c d err hr hd
  rcases hcase with ⟨pdu, _, hm, rfl⟩ | ⟨m, hlen, hseg, _⟩
  · refine ⟨[pdu], rfl, (C126_present [pdu] options).1, ?_⟩
    rw [show pdus [some ⟨c, pdu⟩] = [pdu].map some from rfl, (C126_present [pdu] options).2]
    cases hc : Model.Sms.IsCompleteMessage [pdu] with
    | true => exact .inl rfl
    | false =>
      refine .inr ⟨rfl, pdu, ?_⟩
      have hn := fun h => Bool.false_ne_true (hc.symm.trans ((C47_complete_iff [pdu]).2 h))
      cases hi : pdu.ConcatInfo with
      | none => exact (hn (.inl ⟨pdu, rfl, hi⟩)).elim
      | some ci =>
        refine ⟨ci, rfl, rfl, ?_⟩
        have h2 : ¬ 2 ≤ ci.segments := fun h2 => hm ⟨ci, hi, h2⟩
        by_cases h0 : ci.segments = 0
        · exact .inl h0
        · refine .inr ⟨by omega, fun hq => hn (.inr ⟨by simp, ci.mref, ?_⟩)⟩
          intro i t ht
          match i with
          | 0 =>
            simp only [List.getElem?_cons_zero, Option.some.injEq] at ht
            subst ht
            rw [hi]
            obtain ⟨a, b, r⟩ := ci
            simp only at hq h0 h2
            have : a = 1 := by omega
            subst this; subst hq
            rfl
          | i + 1 => simp at ht
  · have hnn : none ∉ d := by
      intro hn
      obtain ⟨j, hj⟩ := List.mem_iff_getElem?.1 hn
      have hjl : j < d.length := (List.getElem?_eq_some_iff.1 hj).1
      obtain ⟨ptr, hp, _⟩ := hseg j (by omega)
      rw [hj] at hp; cases hp
    obtain ⟨l, rfl⟩ := Nil.all_some hnn
    have hp : pdus (l.map some) = (l.map (·.pdu)).map some := by simp [pdus]
    refine ⟨l.map (·.pdu), hp, by rw [hp]; exact (C126_present _ options).1, .inl ?_⟩
    rw [hp, (C126_present _ options).2, (C47_complete_iff _).2]
    refine .inr ⟨by simpa using hd, m.ref, ?_⟩
    intro i t ht
    simp only [List.getElem?_map, Option.map_eq_some_iff] at ht
    obtain ⟨ptr, h1, rfl⟩ := ht
    have hil : i < l.length := (List.getElem?_eq_some_iff.1 h1).1
    simp only [List.length_map] at hlen ⊢
    obtain ⟨ptr', g1, g2, _⟩ := hseg i (by omega)
    rw [List.getElem?_map, h1] at g1
    simp only [Option.map_some, Option.some.injEq] at g1
    subst g1
    rw [hlen]
    exact g2.1.info

/-- C126: asked about what the expiry handler is given, `IsCompleteMessage` always dereferences a nil pointer, and `Decode`
does so too or fails. -/
theorem C126_handled (timeout handler : Bool) (es : List Event) (hes : ∀ e ∈ es, FineEvent e) (s : State) (os : List Output)
    (h : run (New timeout handler) es = .ok (s, os)) (i : Nat) (d : List (Option Ptr)) (hi : os[i]? = some (.handled d))
    (options : List CharsetOpt) :
    Model.Sms.IsCompleteMessagePtrs (pdus d) = panicM .nil ∧
    (Model.Sms.DecodePtrs (pdus d) options = panicM .nil ∨ Model.Sms.DecodePtrs (pdus d) options = fail .ucs2InvalidLength) := by
  obtain ⟨_, m, h1, _, h3, h4⟩ := C51_incomplete timeout handler es hes s os h i d hi
  exact partly_asked h1 h3 (fun j ptr hj => (h4 j ptr hj).1) options

/-- C126: the same of every slice in the map returned by `Pipes`. -/
theorem C126_pending (timeout handler : Bool) (es : List Event) (hes : ∀ e ∈ es, FineEvent e) (s : State) (os : List Output)
    (h : run (New timeout handler) es = .ok (s, os)) (key : List UInt8) (p : Nat) (hp : (Pipes s).lookup key = some p)
    (options : List CharsetOpt) :
    Model.Sms.IsCompleteMessagePtrs (pdus (deref s p)) = panicM .nil ∧
    (Model.Sms.DecodePtrs (pdus (deref s p)) options = panicM .nil ∨
      Model.Sms.DecodePtrs (pdus (deref s p)) options = fail .ucs2InvalidLength) := by
  have hh := hist_run hes h
  obtain ⟨pipe, hg, hok, hlt, _⟩ := hh.inv.cur key p hp
  rw [deref_of hg]
  obtain ⟨j, ptr, hj⟩ := hok.nonempty
  obtain ⟨m, m1, m2, m3⟩ := of_segK (hok.seg j ptr hj)
  refine partly_asked m2.symm ?_ ?_ options
  · rw [hok.frags] at hlt
    by_cases hn : none ∈ pipe.segments
    · exact hn
    · have : pipe.segments.countP Option.isSome = pipe.segments.length := by
        rw [List.countP_eq_length]
        intro q hq
        cases q with
        | none => exact absurd hq hn
        | some _ => rfl
      omega
  · intro j' ptr' hj'
    obtain ⟨m', m1', m2', m3'⟩ := of_segK (hok.seg j' ptr' hj')
    have := keyOf_inj (m3'.trans m3.symm)
    subst this
    exact m1'

/-- C126: what cmd/smsdeliver does with the result of `Collect` is this `Decode`. -/
theorem C126_smsdeliver (d : List (Option Ptr)) : SmsDeliver.decodePtrs d = Model.Sms.DecodePtrs (pdus d) [] := by
  have hfm : ∀ l : List Ptr, (l.map some).filterMap (fun p => p.map (·.pdu)) = l.map (·.pdu) := by
    intro l
    induction l with
    | nil => rfl
    | cons a l ih => simpa using ih
  by_cases hn : none ∈ d
  · obtain ⟨l, rest, rfl⟩ := Nil.split_nil hn
    have ht : (l.map some ++ none :: rest).takeWhile Option.isSome = l.map some := by
      induction l with
      | nil => rfl
      | cons a l ih => simp
    have hp : pdus (l.map some ++ none :: rest) = (l.map (·.pdu)).map some ++ none :: pdus rest := by
      simp [pdus]
    unfold SmsDeliver.decodePtrs
    rw [ht, hfm, hp]
    simp only
    rw [if_neg (by simp)]
    unfold Model.Sms.DecodePtrs
    rw [Nil.decodeLoop_nil]
    unfold Model.Sms.Decode
    cases Model.Sms.decodeLoop (Model.Sms.decodeOpts []) (l.map (·.pdu)) [] with
    | ok v => rfl
    | error e => cases e with
      | panic k => rfl
      | err e => cases e <;> rfl
  · obtain ⟨l, rfl⟩ := Nil.all_some hn
    have ht : (l.map some).takeWhile Option.isSome = l.map some := by
      induction l with
      | nil => rfl
      | cons a l ih => simpa [List.takeWhile_cons] using ih (by simp)
    have hp : pdus (l.map some) = (l.map (·.pdu)).map some := by simp [pdus]
    unfold SmsDeliver.decodePtrs
    rw [ht, hfm, hp]
    simp only
    rw [if_pos (by simp)]
    exact (C126_present _ []).1.symm

/-- C126 is false: the first of two segments has been collected; asking whether that is complete, be it in what
`Pipes` returns or in what the expiry handler is given, ends in a panic. -/
theorem C126_counterexample : ∃ (s s' : State) (os os' : List Output) (p : Nat) (d : List (Option Ptr)),
    run (New true true) [.collect (exSeg 8 2 1)] = .ok (s, os) ∧ (Pipes s).lookup (keyOf { exIdent with ref := 8, count := 2 }) = some p ∧
    Model.Sms.IsCompleteMessagePtrs (pdus (deref s p)) = panicM .nil ∧
    run s [.fire 0, .expire 0, .handle 0] = .ok (s', os') ∧ os'[2]? = some (.handled d) ∧
    Model.Sms.IsCompleteMessagePtrs (pdus d) = panicM .nil ∧ Model.Sms.DecodePtrs (pdus d) [] = panicM .nil :=
  ⟨_, _, _, _, _, _, rfl, rfl, rfl, rfl, rfl, rfl, rfl⟩

/-- Beside C126: a message returned by `Collect`, and a TPDU that is the second of one, which `Collect` returns but which
is not complete. -/
example : ∃ s os, run (New false false) [.collect (exSeg 8 2 2), .collect (exSeg 9 1 2), .collect (exSeg 8 2 1)] = .ok (s, os) ∧
    (replies os)[1]? = some ([some ⟨1, exSeg 9 1 2⟩], none) ∧
    Model.Sms.IsCompleteMessagePtrs [some (exSeg 9 1 2)] = .ok false ∧
    (replies os)[2]? = some ([some ⟨2, exSeg 8 2 1⟩, some ⟨0, exSeg 8 2 2⟩], none) ∧
    Model.Sms.IsCompleteMessagePtrs [some (exSeg 8 2 1), some (exSeg 8 2 2)] = .ok true := ⟨_, _, rfl, rfl, rfl, rfl, rfl⟩

/-- Beside C126: a nil pointer that is not reached, an odd length before one. -/
example : Model.Sms.IsCompleteMessagePtrs [some (exSeg 8 3 1), none] = .ok false ∧
    Model.Sms.DecodePtrs [some { DCS := 8, UD := [0x41] }, none] [] = fail .ucs2InvalidLength ∧
    Model.Sms.DecodePtrs [some { DCS := 8, UD := [0xD8, 0x3D] }, none] [] = panicM .nil := by decide

end Verif.Props
