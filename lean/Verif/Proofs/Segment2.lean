import Verif.Proofs.Segment
import Verif.Proofs.TpduUd

/-! Helper lemmas for `Segment` and `UDBlockSize`. -/

namespace Verif.Proofs
open Verif.Model Verif.Spec

/-! ### Block sizes -/

theorem alphabet_ne_reserved (t : TPDU) : t.Alphabet.1 ≠ .reserved := by
  have : ∀ d : UInt8, (DCS.Alphabet d).1 ≠ .reserved := by apply forall_u8; decide +kernel
  exact this t.DCS

theorem udhl_zero (udh : UDH) : udh.UDHL = 0 ↔ udh = [] := by
  cases udh with
  | nil => simp [UDH.UDHL]
  | cons a l => simp [UDH.UDHL]

/-- Octets for header and content, by type. -/
def baseSize (t : TPDU) : Nat :=
  if t.SmsType = SmsSubmit ∨ t.SmsType = SmsDeliver then 140
  else if t.SmsType = SmsCommand then 146
  else if t.SmsType = SmsSubmitReport then (if t.FCS = 0 then 152 else 151)
  else if t.SmsType = SmsDeliverReport then (if t.FCS = 0 then 159 else 158)
  else if t.SmsType = SmsStatusReport then 131
  else 0

/-- Units left by a header of `h` octets. -/
def unitsLeft (a : Alphabet) (base h : Nat) : Int :=
  match a with
  | .a7Bit => ((base * 8 / 7 : Nat) : Int) - ((8 * h + 6) / 7 : Nat)
  | .ucs2 => ((base : Int) - h) - ((base : Int) - h) % 2
  | _ => (base : Int) - h

theorem baseSize_eq (t : TPDU) : (if t.SmsType = SmsSubmit ∨ t.SmsType = SmsDeliver then (140 : Int)
    else if t.SmsType = SmsCommand then 146
    else if t.SmsType = SmsSubmitReport then (if t.FCS = 0 then 152 else 151)
    else if t.SmsType = SmsDeliverReport then (if t.FCS = 0 then 159 else 158)
    else if t.SmsType = SmsStatusReport then 131
    else 0) = (baseSize t : Nat) := by
  unfold baseSize
  repeat' split
  all_goals rfl

theorem blockSize_eq (t : TPDU) : t.UDBlockSize = unitsLeft t.Alphabet.1 (baseSize t) (hdrLen t.UDH) := by
  unfold TPDU.UDBlockSize
  simp only [baseSize_eq]
  have hr := alphabet_ne_reserved t
  generalize baseSize t = b
  have hh : hdrLen t.UDH = if t.UDH.UDHL = 0 then 0 else t.UDH.UDHL + 1 := by
    rw [hdrLen_def]
    by_cases h : t.UDH = []
    · rw [if_pos h, if_pos ((udhl_zero _).mpr h)]
    · rw [if_neg h, if_neg (fun h' => h ((udhl_zero _).mp h'))]
  rw [hh]
  generalize t.UDH.UDHL = u
  generalize t.Alphabet.1 = a at *
  have hd : ((b : Int) * 8).tdiv 7 = ((b * 8 / 7 : Nat) : Int) := by
    rw [Int.tdiv_eq_ediv_of_nonneg (by omega)]; omega
  cases a with
  | a7Bit =>
    simp only [unitsLeft, if_true, hd]
    split
    · simp
    · simp only [Nat.mul_comm]
  | a8Bit =>
    simp only [unitsLeft, reduceCtorEq, if_false]
    by_cases h : u = 0
    · subst h; simp
    · rw [if_pos (by omega), if_neg h]
  | ucs2 =>
    simp only [unitsLeft, reduceCtorEq, if_false, if_true]
    by_cases h : u = 0
    · subst h; simp
    · rw [if_pos (by omega), if_neg h]
  | reserved => exact absurd rfl hr

theorem packLoop_length (u : Bytes) : ∀ (r : UInt8) (k : Nat), k ≤ 7 →
    (Gsm7.packLoop u r k).length = (7 * u.length + k + 7) / 8 := by
  induction u with
  | nil => intro r k hk; unfold Gsm7.packLoop; split <;> simp <;> omega
  | cons s u ih =>
    intro r k hk
    unfold Gsm7.packLoop
    split
    · rename_i h; subst h; rw [ih _ 7 (by omega)]; simp; omega
    · rw [List.length_cons, ih _ (k - 1) (by omega)]; simp; omega

/-- What the encoded user data takes besides its length octet. -/
theorem encodeUserData_size (t : TPDU) (e : Bytes) (h : t.encodeUserData = .ok e) (base : Nat) (hb : base % 7 = 0) :
    (e.length - 1 ≤ base ↔ (t.UD.length : Int) ≤ unitsLeft t.Alphabet.1 base (hdrLen t.UDH)) ∧ 1 ≤ e.length := by
  unfold TPDU.encodeUserData at h
  have hr := alphabet_ne_reserved t
  have hl := hdrLen_eq t.UDH
  generalize t.Alphabet = al at *
  obtain ⟨a, o⟩ := al
  cases o with
  | some x => simp [fail] at h
  | none =>
    simp only at h hr ⊢
    cases a with
    | reserved => exact absurd rfl hr
    | a7Bit =>
      simp only [if_true, Except.ok.injEq] at h
      rw [← h]
      simp only [unitsLeft, List.length_cons, List.length_append, List.cons_append, hl, fill_eq]
      refine ⟨?_, by omega⟩
      unfold Gsm7.Pack7Bit
      split
      · rename_i h0
        rw [h0, List.length_nil]; omega
      · rename_i h0
        obtain ⟨f, q, hf, hq, hf7⟩ : ∃ f q, (7 - hdrLen t.UDH % 7) % 7 = f ∧ 8 * hdrLen t.UDH + f = 7 * q ∧ f < 7 :=
          ⟨(7 - hdrLen t.UDH % 7) % 7, (8 * hdrLen t.UDH + (7 - hdrLen t.UDH % 7) % 7) / 7, rfl, by omega, by omega⟩
        rw [hf, packLoop_length _ _ _ (by omega)]
        have hc : (8 * hdrLen t.UDH + 6) / 7 = q := by omega
        rw [hc]
        omega
    | a8Bit =>
      simp only [reduceCtorEq, if_false, false_and, Except.ok.injEq] at h
      rw [← h]
      simp only [unitsLeft, List.length_cons, List.length_append, List.cons_append, hl]
      omega
    | ucs2 =>
      simp only [reduceCtorEq, if_false, true_and] at h
      split at h
      · simp [fail] at h
      · simp only [Except.ok.injEq] at h
        rw [← h]
        simp only [unitsLeft, List.length_cons, List.length_append, List.cons_append, hl]
        omega

/-! ### `Segment` -/

theorem hdrLen_ief (udh : UDH) (cfg : SegCfg) (a b c a' b' c' : Int) :
    hdrLen (udh ++ [cfg.ief a b c]) = hdrLen (udh ++ [cfg.ief a' b' c']) := by
  unfold hdrLen SegCfg.ief
  split <;> simp [newInfoElement, newInfoElement16bit, Ucs2.putBE16]

theorem mti_udhi (o : UInt8) : FirstOctet.MTI (o ||| FirstOctet.FoUDHI) = FirstOctet.MTI o := by
  revert o; apply forall_u8; decide +kernel

/-- Segment `k` of a multi-part message. -/
def segPdu (t : TPDU) (cfg : SegCfg) (n k : Nat) (c : Bytes) : TPDU :=
  { t with
    FirstOctet := t.FirstOctet ||| FirstOctet.FoUDHI
    PI := t.PI ||| PI.PiUDL
    MR := nthMR t cfg.mr k
    UDH := t.UDH ++ [cfg.ief (match cfg.cr with | none => 1 | some c => c.vals c.pos) n (k + 1)]
    UD := c }

theorem baseSize_congr (t t' : TPDU) (h1 : t'.SmsType = t.SmsType) (h2 : t'.FCS = t.FCS) : baseSize t' = baseSize t := by
  unfold baseSize; rw [h1, h2]

theorem segPdu_blockSize (t : TPDU) (cfg : SegCfg) (n k : Nat) (c : Bytes) :
    (segPdu t cfg n k c).UDBlockSize = (segTemplate t cfg).UDBlockSize := by
  rw [blockSize_eq, blockSize_eq]
  have h1 : (segPdu t cfg n k c).Alphabet = (segTemplate t cfg).Alphabet := rfl
  have h2 : (segPdu t cfg n k c).SmsType = (segTemplate t cfg).SmsType := by
    unfold TPDU.SmsType; simp only [segPdu, mti_udhi]; rfl
  rw [h1, baseSize_congr _ _ h2 rfl]
  congr 1
  exact hdrLen_ief _ _ _ _ _ _ _ _

theorem setUDH_blockSize (t : TPDU) (cfg : SegCfg) :
    (t.SetUDH (some (t.UDH ++ [cfg.ief 0 0 0]))).UDBlockSize = (segTemplate t cfg).UDBlockSize := by
  rw [blockSize_eq, blockSize_eq]
  have h2 : (t.SetUDH (some (t.UDH ++ [cfg.ief 0 0 0]))).SmsType = (segTemplate t cfg).SmsType := by
    unfold TPDU.SmsType; simp only [TPDU.SetUDH, mti_udhi]; rfl
  rw [baseSize_congr _ _ h2 rfl]
  rfl

theorem segTemplate_le (t : TPDU) (cfg : SegCfg) : (segTemplate t cfg).UDBlockSize ≤ t.UDBlockSize := by
  rw [blockSize_eq, blockSize_eq]
  have hh : hdrLen t.UDH ≤ hdrLen (segTemplate t cfg).UDH := by
    show hdrLen t.UDH ≤ hdrLen (t.UDH ++ [cfg.ief 0 0 0])
    unfold hdrLen
    split
    · omega
    · rw [if_neg (by simp)]; simp
  have hb : baseSize (segTemplate t cfg) = baseSize t := baseSize_congr _ _ rfl rfl
  have ha : (segTemplate t cfg).Alphabet = t.Alphabet := rfl
  rw [hb, ha]
  generalize hdrLen (segTemplate t cfg).UDH = h' at *
  cases t.Alphabet.1 <;> simp only [unitsLeft] <;> omega

/-- A counter after `n` more calls. -/
def advance (n : Nat) (c : Counter) : Counter := { c with pos := c.pos + n }

theorem segLoop_mr (t : TPDU) (ief) (r : Int) (n : Nat) (cs : List Bytes) : ∀ i mr,
    (segLoop t ief r n cs i mr).2 = mr.map (advance cs.length) := by
  induction cs with
  | nil => intro i mr; cases mr <;> rfl
  | cons c cs ih =>
    intro i mr
    simp only [segLoop, ih]
    cases mr with
    | none => rfl
    | some c => simp [setMR, Counter.count, advance]; omega

theorem segment_chunks (t : TPDU) (msg : Bytes) (cfg : SegCfg) (hne : msg ≠ [])
    (hbig : ¬ (msg.length : Int) ≤ t.UDBlockSize) :
    (∀ cs, chunk msg t.Alphabet.1 (segTemplate t cfg).UDBlockSize = .ok cs →
      ∃ res, t.Segment msg cfg = .ok res ∧ res.pdus = cs.mapIdx (fun k c => segPdu t cfg cs.length k c) ∧
        res.cr = cfg.cr.map (advance 1) ∧ res.mr = cfg.mr.map (advance cs.length)) ∧
    (∀ f, chunk msg t.Alphabet.1 (segTemplate t cfg).UDBlockSize = .error f → t.Segment msg cfg = .error f) := by
  have hl : ¬ msg.length = 0 := by simpa using hne
  have hal : ({ t.SetUDH (some (t.UDH ++ [cfg.ief 0 0 0])) with UDH := t.UDH } : TPDU).Alphabet = t.Alphabet := rfl
  constructor
  · intro cs hcs
    unfold TPDU.Segment
    simp only
    rw [if_neg hl, if_neg hbig, setUDH_blockSize, hal, hcs]
    simp only [ok_bind]
    refine ⟨_, rfl, ?_, ?_, ?_⟩
    rotate_left
    · cases cfg.cr <;> simp [Counter.count, advance]
    · exact segLoop_mr _ _ _ _ _ _ _
    simp only
    apply List.ext_getElem?
    intro k
    rw [List.getElem?_mapIdx]
    cases hk : cs[k]? with
    | none =>
      rw [Option.map_none, List.getElem?_eq_none_iff, segLoop_length]
      exact List.getElem?_eq_none_iff.mp hk
    | some c =>
      rw [segLoop_get _ _ _ _ _ _ _ _ _ hk]
      simp only [Option.map_some, segPdu, TPDU.SetUDH, Option.some.injEq, UInt8.or_assoc, UInt8.or_self]
      cases cfg.cr <;> cases hmr : cfg.mr <;> simp [nthMR, Counter.count]
  · intro f hf
    unfold TPDU.Segment
    simp only
    rw [if_neg hl, if_neg hbig, setUDH_blockSize, hal, hf]
    rfl

theorem segment_multi (t : TPDU) (msg : Bytes) (cfg : SegCfg) (hne : msg ≠ []) (bs : Nat)
    (hbs : (segTemplate t cfg).UDBlockSize = bs) (hmin : minBlock t.Alphabet.1 ≤ bs)
    (hbig : ¬ (msg.length : Int) ≤ t.UDBlockSize) :
    ∃ res cs, t.Segment msg cfg = .ok res ∧
      cs = cutsLoop (adjOf msg t.Alphabet.1) (roundBlock t.Alphabet.1 bs) msg (msg.length + 1) 0 ∧
      res.pdus = cs.mapIdx (fun k c => segPdu t cfg cs.length k c) ∧
      res.cr = cfg.cr.map (advance 1) ∧ res.mr = cfg.mr.map (advance cs.length) := by
  obtain ⟨res, h1, h2, h3⟩ := (segment_chunks t msg cfg hne hbig).1 _ (by rw [hbs]; exact chunk_cuts msg hne _ bs hmin)
  exact ⟨res, _, h1, rfl, h2, h3⟩

end Verif.Proofs
