import Verif.Props.Segment2
import Verif.Props.SmsDecode
import Verif.Proofs.TooLong

/-! C125: what a receiver makes of a text that takes too many TPDUs. -/

namespace Verif.Props
open Verif.Model Verif.Model.Collector Verif.Spec Verif.Proofs Verif.Proofs.Coll Verif.Proofs.TooLong
open Verif.Spec.Reassembly (Parts Input Result)

/-- What the TPDUs of a message of the template show to a receiver. -/
def identOf (t : TPDU) (cfg : SegCfg) (n : Nat) : Ident :=
  ⟨t.SmsType, peer t, (concatRef cfg % (if cfg.wide then 65536 else 256)).toNat, n % 256⟩

private theorem seen (t : TPDU) (msg : List UInt8) (cfg : SegCfg) (h : Room t cfg) (hw : cfg.wide = true → t.UDH.ConcatInfo8 = none)
    (hs : Supported t) (hbig : ¬ (msg.length : Int) ≤ t.UDBlockSize) (res : SegResult) (hr : t.Segment msg cfg = .ok res) :
    Seen (identOf t cfg res.pdus.length) res.pdus := by
  obtain ⟨res1, a1, a2, _⟩ := C36_multi t msg cfg h hbig
  obtain ⟨res2, b1, _, b3⟩ := segment_multi_info t msg cfg h hw hbig
  rw [hr] at a1 b1
  cases a1; cases b1
  refine ⟨rfl, ?_⟩
  intro k p hk
  have hty : p.SmsType = t.SmsType := by
    rw [a2 k p hk]
    have : ∀ f : UInt8, FirstOctet.MTI (f ||| 0x40) = FirstOctet.MTI f := mti_udhi
    unfold TPDU.SmsType
    simp only [this]
  have hpe : peer p = peer t := by
    unfold peer
    rw [hty, a2 k p hk]
  refine ⟨(b3 k p hk).2, ?_, hty, hpe⟩
  unfold Supported
  rw [hty]
  exact hs

/-- C125, exactly: a Collector, whatever has happened to it before, that is not closed and has nothing pending of the message,
is given the TPDUs of the message in sequence, however many there are.  It answers as `answerTo` says. -/
theorem C125_answers (t : TPDU) (msg : List UInt8) (cfg : SegCfg) (h : Room t cfg) (hw : cfg.wide = true → t.UDH.ConcatInfo8 = none)
    (hs : Supported t) (hbig : ¬ (msg.length : Int) ≤ t.UDBlockSize) (res : SegResult) (hr : t.Segment msg cfg = .ok res)
    (timeout handler : Bool) (es : List Event) (hes : ∀ e ∈ es, FineEvent e) (s : State) (os : List Output)
    (hrun : run (New timeout handler) es = .ok (s, os)) (hc : s.closed = false)
    (hp : (Pipes s).lookup (keyOf (identOf t cfg res.pdus.length)) = none) :
    ∃ s' os', run s (res.pdus.map .collect) = .ok (s', os') ∧
      os'.map result = (List.range res.pdus.length).map (answerTo res.pdus) := by
  have hseen := seen t msg cfg h hw hs hbig res hr
  by_cases h2 : 2 ≤ res.pdus.length % 256
  · exact answers _ h2 _ res.pdus (Nat.le_refl _) (by intro h0; rw [h0] at h2; simp at h2) hseen (hist_run hes hrun).inv hc hp
  · obtain ⟨s', os', h1, h3⟩ := singly res.pdus (res.pdus.length % 256) _ (by omega) (fun p hpm => by
      obtain ⟨k, hk⟩ := List.mem_iff_getElem?.1 hpm
      exact ⟨_, (hseen.seg k p hk).1⟩) hc
    refine ⟨s', os', h1, ?_⟩
    rw [h3]
    apply List.ext_getElem
    · simp
    · intro k h4 h5
      have hk : k < res.pdus.length := by simpa using h4
      simp only [List.getElem_map, List.getElem_range]
      unfold answerTo
      simp only
      rw [if_pos (by omega), List.getElem?_eq_getElem hk]

private theorem whole_answers (pdus : List TPDU) (h2 : 2 ≤ pdus.length) (h : pdus.length ≤ 255) :
    (List.range pdus.length).map (answerTo pdus) =
      List.replicate (pdus.length - 1) (.returned [] none) ++ [.returned (pdus.map some) none] := by
  apply List.ext_getElem
  · simp; omega
  · intro k h3 h4
    have hk : k < pdus.length := by simpa using h3
    simp only [List.getElem_map, List.getElem_range]
    unfold answerTo
    simp only
    rw [Nat.mod_eq_of_lt (show pdus.length < 256 by omega), Nat.mod_eq_of_lt (show k + 1 < 256 by omega), if_neg (by omega), if_neg (by omega)]
    by_cases hx : k + 1 < pdus.length
    · rw [if_pos hx, List.getElem_append_left (by simp; omega), List.getElem_replicate]
    · rw [if_neg hx, List.getElem_append_right (by simp; omega), show k + 1 - pdus.length = 0 by omega]
      simp

/-- C125, partial: a message of at most 255 TPDUs is received whole or not at all: nothing is returned until the last, and then
all of it.  Missing: more TPDUs, for which it is false (`C125_cut`, `C125_singly`). -/
theorem C125_whole_partial (t : TPDU) (msg : List UInt8) (cfg : SegCfg) (h : Room t cfg) (hw : cfg.wide = true → t.UDH.ConcatInfo8 = none)
    (hs : Supported t) (hbig : ¬ (msg.length : Int) ≤ t.UDBlockSize) (res : SegResult) (hr : t.Segment msg cfg = .ok res)
    (hn : res.pdus.length ≤ 255) (timeout handler : Bool) :
    ∃ s os, run (New timeout handler) (res.pdus.map .collect) = .ok (s, os) ∧
      os.map result = List.replicate (res.pdus.length - 1) (.returned [] none) ++ [.returned (res.pdus.map some) none] := by
  obtain ⟨s, os, h1, h2⟩ := C125_answers t msg cfg h hw hs hbig res hr timeout handler [] (by simp) _ [] rfl rfl rfl
  exact ⟨s, os, h1, by rw [h2, whole_answers _ (C33_multi t msg cfg h hbig res hr) hn]⟩

/-- C125 is false of more than 255 TPDUs: if their count modulo 256 is 0 or 1, each of them is returned on its own. -/
theorem C125_singly (t : TPDU) (msg : List UInt8) (cfg : SegCfg) (h : Room t cfg) (hw : cfg.wide = true → t.UDH.ConcatInfo8 = none)
    (hs : Supported t) (hbig : ¬ (msg.length : Int) ≤ t.UDBlockSize) (res : SegResult) (hr : t.Segment msg cfg = .ok res)
    (h2 : res.pdus.length % 256 < 2) (timeout handler : Bool) :
    ∃ s os, run (New timeout handler) (res.pdus.map .collect) = .ok (s, os) ∧
      os.map result = res.pdus.map fun p => .returned [some p] none := by
  obtain ⟨s, os, h1, h3⟩ := C125_answers t msg cfg h hw hs hbig res hr timeout handler [] (by simp) _ [] rfl rfl rfl
  refine ⟨s, os, h1, ?_⟩
  rw [h3]
  apply List.ext_getElem
  · simp
  · intro k h4 h5
    have hk : k < res.pdus.length := by simpa using h4
    simp only [List.getElem_map, List.getElem_range]
    unfold answerTo
    simp only
    rw [if_pos h2, List.getElem?_eq_getElem hk]

private theorem cut_answer (t : TPDU) (msg : List UInt8) (cfg : SegCfg) (h : Room t cfg) (hw : cfg.wide = true → t.UDH.ConcatInfo8 = none)
    (hs : Supported t) (hbig : ¬ (msg.length : Int) ≤ t.UDBlockSize) (res : SegResult) (hr : t.Segment msg cfg = .ok res)
    (hn : 255 < res.pdus.length) (h2 : 2 ≤ res.pdus.length % 256) :
    answerTo res.pdus (res.pdus.length % 256 - 1) = .returned ((res.pdus.take (res.pdus.length % 256)).map some) none ∧
    Model.Sms.IsCompleteMessage (res.pdus.take (res.pdus.length % 256)) = true ∧
    ∃ rest, rest ≠ [] ∧ msg = content (res.pdus.take (res.pdus.length % 256)) ++ rest := by
  have hseen := seen t msg cfg h hw hs hbig res hr
  have hlt := Nat.mod_lt res.pdus.length (show 256 > 0 by decide)
  refine ⟨?_, ?_, ?_⟩
  · unfold answerTo
    simp only
    rw [Nat.mod_eq_of_lt (show res.pdus.length % 256 - 1 + 1 < 256 by omega), if_neg (by omega), if_neg (by omega), if_neg (by omega),
      show res.pdus.length % 256 - 1 + 1 - res.pdus.length % 256 = 0 by omega, List.drop_zero]
  · rw [C47_complete_iff]
    right
    refine ⟨fun h0 => ?_, (identOf t cfg res.pdus.length).ref, ?_⟩
    · have := congrArg List.length h0
      rw [List.length_take, List.length_nil] at this
      omega
    · intro i p hi
      have hil : i < res.pdus.length % 256 := by
        have := (List.getElem?_eq_some_iff.1 hi).1
        rw [List.length_take] at this
        omega
      rw [List.getElem?_take_of_lt hil] at hi
      rw [(hseen.seg i p hi).1, List.length_take, Nat.min_eq_left (by omega), Nat.mod_eq_of_lt (show i + 1 < 256 by omega)]
      rfl
  · obtain ⟨res', g1, g2, g3⟩ := C33_pieces t msg cfg h
    rw [hr] at g1; cases g1
    refine ⟨((res.pdus.drop (res.pdus.length % 256)).map (·.UD)).flatten, ?_, ?_⟩
    · have hd : res.pdus.drop (res.pdus.length % 256) ≠ [] := by
        intro h0
        have := congrArg List.length h0
        rw [List.length_drop, List.length_nil] at this
        omega
      obtain ⟨p, l, hpl⟩ := List.exists_cons_of_ne_nil hd
      rw [hpl, List.map_cons, List.flatten_cons]
      intro h0
      have hp : p ∈ res.pdus := List.mem_of_mem_drop (by rw [hpl]; exact List.mem_cons_self)
      exact (g3 p hp).1 (List.append_eq_nil_iff.1 h0).1
    · unfold content
      rw [← List.flatten_append, ← List.map_append, List.take_append_drop]
      exact g2.symm

/-- C125 is false of more than 255 TPDUs: if their count modulo 256 is `c ≥ 2`, the first `c` are returned, without an error,
as a message that is complete according to `IsCompleteMessage`, though its content is only the beginning of the message. -/
theorem C125_cut (t : TPDU) (msg : List UInt8) (cfg : SegCfg) (h : Room t cfg) (hw : cfg.wide = true → t.UDH.ConcatInfo8 = none)
    (hs : Supported t) (hbig : ¬ (msg.length : Int) ≤ t.UDBlockSize) (res : SegResult) (hr : t.Segment msg cfg = .ok res)
    (hn : 255 < res.pdus.length) (c : Nat) (hc : c = res.pdus.length % 256) (h2 : 2 ≤ c) (timeout handler : Bool) :
    ∃ s os, run (New timeout handler) (res.pdus.map .collect) = .ok (s, os) ∧
      (os.map result)[c - 1]? = some (.returned ((res.pdus.take c).map some) none) ∧
      Model.Sms.IsCompleteMessage (res.pdus.take c) = true ∧
      ∃ rest, rest ≠ [] ∧ msg = content (res.pdus.take c) ++ rest := by
  subst hc
  obtain ⟨s, os, h1, h3⟩ := C125_answers t msg cfg h hw hs hbig res hr timeout handler [] (by simp) _ [] rfl rfl rfl
  obtain ⟨a, b⟩ := cut_answer t msg cfg h hw hs hbig res hr hn h2
  refine ⟨s, os, h1, ?_, b⟩
  have := Nat.mod_lt res.pdus.length (show 256 > 0 by decide)
  rw [h3, List.getElem?_map, List.getElem?_range (by omega), Option.map_some, a]

private theorem flatten_replicate (n k : Nat) : (List.replicate n (List.replicate k (0x61 : UInt8))).flatten = List.replicate (n * k) 0x61 := by
  rw [List.flatten_replicate_replicate]

/-- C125: such messages exist: 45900 letters with the default template take 300 TPDUs, of which the first 44 come out as a
complete message. -/
theorem C125_counterexample : ∃ msg res s os, (submitT 0 []).Segment msg {} = .ok res ∧ res.pdus.length = 300 ∧
    run (New true true) (res.pdus.map .collect) = .ok (s, os) ∧
    (os.map result)[43]? = some (.returned ((res.pdus.take 44).map some) none) ∧
    Model.Sms.IsCompleteMessage (res.pdus.take 44) = true ∧
    ∃ rest, rest ≠ [] ∧ msg = content (res.pdus.take 44) ++ rest := by
  have hroom : Room (submitT 0 []) {} := by decide
  have hbs : (submitT 0 []).UDBlockSize = 160 := by decide
  have hst : (segTemplate (submitT 0 []) {}).UDBlockSize = 153 := by decide
  have hflat := flatten_replicate 300 153
  have hlen : (List.replicate (300 * 153) (0x61 : UInt8)).length = 45900 := List.length_replicate
  revert hflat hlen
  generalize hM : List.replicate (300 * 153) (0x61 : UInt8) = msg
  intro hflat hlen
  have hbig : ¬ (msg.length : Int) ≤ (submitT 0 []).UDBlockSize := by
    rw [hbs, hlen]; omega
  obtain ⟨res, h1, h2, h3⟩ := C33_pieces (submitT 0 []) msg {} hroom
  have hle : ∀ c ∈ res.pdus.map (·.UD), c.length ≤ 153 := by
    intro c hc
    obtain ⟨p, hp, rfl⟩ := List.mem_map.mp hc
    have hf := (h3 p hp).2
    obtain ⟨res', cs, bs, g1, g2, g3, g4, g5, g6, g7, _⟩ :=
      segment_pieces (submitT 0 []) msg {} (fun h => by rw [h] at hlen; cases hlen) hroom hbig
    rw [h1] at g1; cases g1
    rw [g5] at hp
    obtain ⟨i, hi, rfl⟩ := List.mem_mapIdx.mp hp
    rw [segPdu_blockSize, hst] at hf
    omega
  have hlow := length_flatten_le _ 153 hle
  have hcont : (res.pdus.map (·.UD)).flatten = msg := h2
  rw [hcont, hlen, List.length_map] at hlow
  have hup := C58_minimal_septets_octets (submitT 0 []) msg {} hroom (by decide) res h1 (List.replicate 300 (List.replicate 153 0x61)) hflat
    (fun p hp => by
      rw [(List.mem_replicate.1 hp).2, List.length_replicate, hst]
      omega)
    (fun pre suf he _ _ => by
      intro (hx : (pre.flatten.reverse.takeWhile (· == 0x1b)).length % 2 = 1)
      cases ht : pre.flatten.reverse.takeWhile (· == 0x1b) with
      | nil => rw [ht] at hx; cases hx
      | cons b l =>
        have hb : b ∈ pre.flatten.reverse.takeWhile (· == 0x1b) := by rw [ht]; exact List.mem_cons_self
        have hb2 : b = 0x1b := by simpa using List.all_takeWhile |> (List.all_eq_true.1 · b hb)
        have hb1 : b ∈ pre.flatten := List.mem_reverse.1 ((List.takeWhile_sublist _).subset hb)
        have : b ∈ msg := by
          rw [← hflat, he, List.flatten_append]
          exact List.mem_append_left _ hb1
        rw [← hM] at this
        have := (List.mem_replicate.1 this).2
        rw [hb2] at this
        revert this; decide)
  rw [List.length_replicate] at hup
  have hn : res.pdus.length = 300 := by omega
  obtain ⟨s, os, r1, r2, r3, r4⟩ := C125_cut (submitT 0 []) msg {} hroom (by simp) (.inl (by decide)) hbig res h1 (by omega) 44 (by rw [hn]) (by decide) true true
  exact ⟨msg, res, s, os, h1, hn, r1, r2, r3, r4⟩

end Verif.Props
