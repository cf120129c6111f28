import Verif.Proofs.Safe
import Verif.Proofs.Ussd
import Verif.Spec.Failures

/-! The errors of the decoders, by field and cause. -/

namespace Verif.Proofs
open Verif.Model Verif.Spec

/-- The field, if any, and the cause of an error; `io.EOF` is an underflow. -/
def errKey : Err → Option String × Err
  | .decode f _ c => (some f, c)
  | .eof => (none, .underflow)
  | c => (none, c)

/-- A field within a field. -/
def sub (f : String) : Option String → String
  | none => f
  | some g => f ++ "." ++ g

theorem errKey_new (f : String) (o : Nat) (e : Err) : errKey (newDecodeError f o e) = (some (sub f (errKey e).1), (errKey e).2) := by
  cases e <;> rfl

abbrev Causes := List (Option String × Cause)

/-- An error of `m` is one of the list. -/
def Errs {α : Type} (L : Causes) (m : M α) : Prop :=
  ∀ e, m = .error (.err e) → ∃ p ∈ L, (errKey e).1 = p.1 ∧ p.2.Is (errKey e).2

theorem Errs.ok {α : Type} {L : Causes} {a : α} : Errs L (.ok a : M α) := fun _ h => by cases h

theorem Errs.panic {α : Type} {L : Causes} {k : PanicKind} : Errs L (panicM k : M α) := fun _ h => by cases h

theorem Errs.bind {α β : Type} {L : Causes} {m : M α} {f : α → M β} (h : Errs L m) (hf : ∀ a, m = .ok a → Errs L (f a)) :
    Errs L (m >>= f) := by
  intro e he
  rcases m with x | a
  · cases he; exact h _ rfl
  · exact hf a rfl e he

theorem Errs.idx {α : Type} {L : Causes} {l : List α} {i : Int} : Errs L (idx l i) := by
  unfold Model.idx
  intro e h
  split at h
  · split at h
    · cases h
    · cases h
  · cases h

theorem Errs.slice {α : Type} {L : Causes} {l : List α} {a b : Int} : Errs L (slice l a b) := by
  unfold Model.slice
  intro e h
  split at h
  · cases h
  · cases h

theorem slice_mem {α : Type} {l r : List α} {a b : Int} (h : slice l a b = .ok r) {x : α} (hx : x ∈ r) : x ∈ l := by
  unfold Model.slice at h
  split at h
  · cases h
    exact List.mem_of_mem_take (List.mem_of_mem_drop hx)
  · cases h

theorem Errs.mono {α : Type} {L L' : Causes} {m : M α} (h : Errs L m) (hs : ∀ p ∈ L, p ∈ L') : Errs L' m := by
  intro e he
  obtain ⟨p, hp, h1, h2⟩ := h e he
  exact ⟨p, hs p hp, h1, h2⟩

theorem Errs.fail {α : Type} {L : Causes} {e : Err} (c : Cause) (hp : ((errKey e).1, c) ∈ L) (hc : c.Is (errKey e).2) :
    Errs L (fail e : M α) := by
  intro e' h
  cases h
  exact ⟨_, hp, rfl, hc⟩

theorem Errs.wrapD {α : Type} {L L' : Causes} {m : M α} {f : String} {o : Nat} (h : Errs L m)
    (hs : ∀ p ∈ L, (some (sub f p.1), p.2) ∈ L') : Errs L' (wrapD f o m) := by
  intro e he
  unfold Model.wrapD at he
  split at he
  · cases he
  · rename_i e0
    cases he
    obtain ⟨p, hp, h1, h2⟩ := h e0 rfl
    refine ⟨_, hs p hp, ?_, ?_⟩
    · rw [errKey_new, h1]
    · rw [errKey_new]; exact h2
  · cases he

theorem errs_bcd (b : UInt8) : Errs [(none, .digits)] (Bcd.Decode b) := by
  unfold Bcd.Decode
  simp only
  split
  · rename_i h
    have key : ∀ b : UInt8, b &&& 0x0f > 9 ∨ b >>> 4 > 9 → 9 < b.toNat / 16 ∨ 9 < b.toNat % 16 := by
      apply forall_u8; decide +kernel
    exact Errs.fail .digits (by simp [errKey]) ⟨b, rfl, key b h⟩
  · exact Errs.ok

theorem errs_bcdS (b : UInt8) : Errs [(none, .digits)] (Bcd.DecodeSigned b) := by
  unfold Bcd.DecodeSigned
  simp only
  split
  · rename_i h
    have key : ∀ b : UInt8, b >>> 4 > 9 → 9 < b.toNat / 16 ∨ 9 < b.toNat % 16 := by
      apply forall_u8; decide +kernel
    exact Errs.fail .digits (by simp [errKey]) ⟨b, rfl, key b h⟩
  · split <;> exact Errs.ok

theorem errs_timestamp (src : Bytes) : Errs [(none, .short), (none, .digits)] (Timestamp.UnmarshalBinary src) := by
  have hb : ∀ b, Errs [(none, .short), (none, .digits)] (Bcd.Decode b) := fun b => (errs_bcd b).mono (by simp)
  have hs : ∀ b, Errs [(none, .short), (none, .digits)] (Bcd.DecodeSigned b) := fun b => (errs_bcdS b).mono (by simp)
  unfold Timestamp.UnmarshalBinary
  split
  · exact Errs.fail .short (by simp [errKey]) rfl
  · iterate 6 refine Errs.bind Errs.idx fun _ _ => Errs.bind (hb _) fun _ _ => ?_
    exact Errs.bind Errs.idx fun _ _ => Errs.bind (hs _) fun _ _ => Errs.ok

theorem errs_gsm7 (d : Gsm7.Decoder) (src : Bytes) (hs : Septets src) : Errs [(none, .septet)] (d.Decode src) := by
  rw [decoder_decode_eq]
  have tot : ∀ d' : Gsm7.Decoder, d'.strict = false → ∃ x, d'.loop src false = .ok x := by
    intro d' h
    obtain ⟨rs, h1, _⟩ := decoder_loop_total d' h src false
    exact ⟨_, h1⟩
  by_cases h : d.strict = true
  · have e : d = { d with strict := true } := by cases d; simp only at h; subst h; rfl
    rw [e]
    rcases strict_dichotomy d src false with h | ⟨pre, g, post, hsrc, hg, e3, _⟩
    · obtain ⟨x, hx⟩ := tot { d with strict := false } rfl
      rw [h, hx]; exact Errs.ok
    · rw [e3]
      exact Errs.fail .septet (by simp [errKey]) ⟨g, rfl, hs g (by rw [hsrc]; simp), hg⟩
  · obtain ⟨x, hx⟩ := tot d (by simpa using h)
    rw [hx]; exact Errs.ok

def addressL : Causes := [(some "addr", .short), (some "addr", .fill), (some "addr", .septet)]

theorem errs_address (src : Bytes) : Errs addressL (Address.UnmarshalBinary src) := by
  unfold Address.UnmarshalBinary
  split
  · exact Errs.fail .short (by decide +kernel) rfl
  refine Errs.bind Errs.idx fun l _ => ?_
  refine Errs.bind Errs.idx fun toa _ => ?_
  simp only
  split
  · exact Errs.fail .short (by decide +kernel) rfl
  split
  · refine Errs.bind Errs.slice fun s _ => ?_
    have hu := (unpack7Bit_bits s 0 (by omega)).1
    have tail : ∀ u, Septets u → Errs addressL (do
        let baddr ← wrapD "addr" 2 ((Gsm7.NewDecoder []).WithoutExt.Strict.Decode u)
        pure ((⟨toa, baddr⟩ : Address), 2 + (l.toNat + 1) / 2)) := by
      intro u hu
      exact Errs.bind (Errs.wrapD (errs_gsm7 _ _ hu) (by decide +kernel)) fun b _ => Errs.ok
    split
    · refine Errs.bind Errs.slice fun u hs => tail u ?_
      intro x hx
      exact hu x (slice_mem hs hx)
    · exact tail _ hu
  · refine Errs.bind Errs.slice fun s _ => ?_
    obtain ⟨r, k, hr, _, _, _, h5⟩ := decodeLoop_spec l.toNat s [] 0 (by simp) (by simp [Spec.Digits])
    rw [show Semioctet.Decode l.toNat s = .ok r from hr]
    simp only [ok_bind]
    split
    · rename_i e he
      rw [(h5 e he).1]
      exact Errs.fail .fill (by decide +kernel) rfl
    · split
      · exact Errs.fail .short (by decide +kernel) rfl
      · exact Errs.ok

theorem errs_checkZero (src : Bytes) : ∀ fuel i, Errs [(some "enhanced", .nonZero)] (ValidityPeriod.checkZero src i fuel)
  | 0, _ => Errs.ok
  | fuel + 1, i => by
    unfold ValidityPeriod.checkZero
    split
    · refine Errs.bind Errs.idx fun b _ => ?_
      split
      · exact Errs.fail .nonZero (by simp [errKey, newDecodeError]) rfl
      · exact errs_checkZero src fuel (i + 1)
    · exact Errs.ok

def enhancedL : Causes := [(none, .short), (some "enhanced", .unknown), (some "enhanced", .nonZero), (some "enhanced", .digits)]

theorem errs_enhanced (v : ValidityPeriod) (src : Bytes) : Errs enhancedL (v.unmarshalVPEnhanced src) := by
  unfold ValidityPeriod.unmarshalVPEnhanced
  split
  · exact Errs.fail .short (by decide +kernel) rfl
  refine Errs.bind Errs.idx fun efi _ => ?_
  simp only
  refine Errs.bind ?_ fun r _ => Errs.bind ((errs_checkZero _ _ _).mono (by decide +kernel)) fun _ _ => Errs.ok
  have hb : ∀ b, Errs enhancedL (wrapD "enhanced" 1 (Bcd.Decode b)) := fun b => Errs.wrapD (errs_bcd b) (by decide +kernel)
  split
  · exact Errs.ok
  split
  · exact Errs.bind Errs.idx fun _ _ => Errs.ok
  split
  · exact Errs.bind Errs.idx fun _ _ => Errs.ok
  split
  · refine Errs.bind Errs.idx fun _ _ => Errs.bind (hb _) fun _ _ => ?_
    refine Errs.bind Errs.idx fun _ _ => Errs.bind (hb _) fun _ _ => ?_
    exact Errs.bind Errs.idx fun _ _ => Errs.bind (hb _) fun _ _ => Errs.ok
  · exact Errs.fail .unknown (by decide +kernel) rfl

def vpL (vpf : Nat) : Causes :=
  if vpf = 0 then [] else if vpf = 1 then enhancedL else if vpf = 2 then [(none, .short)] else [(none, .short), (none, .digits)]

theorem errs_vp (v : ValidityPeriod) (src : Bytes) (fo : UInt8) :
    Errs (vpL (fo.toNat / 8 % 4)) (v.UnmarshalBinary src (FirstOctet.VPF fo)) := by
  have key : ∀ fo : UInt8, (FirstOctet.VPF fo = VpfAbsolute ∧ fo.toNat / 8 % 4 = 3) ∨ (FirstOctet.VPF fo = VpfEnhanced ∧ fo.toNat / 8 % 4 = 1) ∨
      (FirstOctet.VPF fo = VpfRelative ∧ fo.toNat / 8 % 4 = 2) ∨ (FirstOctet.VPF fo = VpfNotPresent ∧ fo.toNat / 8 % 4 = 0) := by
    apply forall_u8; decide +kernel
  unfold ValidityPeriod.UnmarshalBinary
  rcases key fo with ⟨h, e⟩ | ⟨h, e⟩ | ⟨h, e⟩ | ⟨h, e⟩ <;> rw [h, e]
  · exact Errs.bind (errs_timestamp src) fun _ _ => Errs.ok
  · exact Errs.bind (errs_enhanced _ src) fun _ _ => Errs.ok
  · show Errs [(none, .short)] (if src.length < 1 then _ else _)
    split
    · exact Errs.fail .short (by decide +kernel) rfl
    · exact Errs.bind Errs.idx fun _ _ => Errs.ok
  · exact Errs.ok

theorem errs_udhLoop (src : Bytes) (udhl : Nat) : ∀ fuel ri,
    Errs [(some "ie", .short), (some "ied", .short)] (UDH.unmarshalLoop src udhl fuel ri) := by
  intro fuel
  induction fuel with
  | zero => intro _; exact Errs.panic
  | succ fuel ih =>
    intro ri
    unfold UDH.unmarshalLoop
    split
    · split
      · exact Errs.fail .short (by simp [errKey, newDecodeError]) rfl
      · refine Errs.bind Errs.idx fun id _ => ?_
        refine Errs.bind Errs.idx fun l _ => ?_
        simp only
        split
        · exact Errs.fail .short (by simp [errKey, newDecodeError]) rfl
        · refine Errs.bind Errs.slice fun d _ => ?_
          exact Errs.bind (ih _) fun _ _ => Errs.ok
    · exact Errs.ok

theorem errs_udh (src : Bytes) (h : src ≠ []) : Errs [(some "ie", .short), (some "ied", .short)] (UDH.UnmarshalBinary src) := by
  unfold UDH.UnmarshalBinary
  rw [if_neg (by cases src with | nil => exact absurd rfl h | cons => simp)]
  refine Errs.bind Errs.idx fun l _ => ?_
  simp only
  split
  · exact Errs.fail .short (by simp [errKey, newDecodeError]) rfl
  · exact Errs.bind (errs_udhLoop _ _ _ _) fun _ _ => Errs.ok

/-- A short message of septets never turns out too short once its octets are there. -/
theorem errs_decode7Bit (sml udhl : Nat) (src : Bytes) (hne : src ≠ []) (hl : udhl + src.length = (sml * 7 + 7) / 8) :
    Errs [(none, .long)] (decode7Bit sml udhl src) := by
  have hlen : 0 < src.length := by cases src with | nil => exact absurd rfl hne | cons => simp
  have key : ∀ (sm : Bytes) (k : Int), k ≤ sm.length → Errs [(none, .long)] (
      if (sm.length : Int) < k then fail .underflow
      else if (sm.length : Int) > k then do
        if (sm.length : Int) > k + 1 then fail .overlength
        else
          let b ← idx sm k
          if b ≠ 0 then fail .overlength
          else slice sm 0 k
      else .ok sm : M Bytes) := by
    intro sm k hk
    rw [if_neg (by omega)]
    split
    · split
      · exact Errs.fail .long (by simp [errKey]) rfl
      · refine Errs.bind Errs.idx fun b _ => ?_
        split
        · exact Errs.fail .long (by simp [errKey]) rfl
        · exact Errs.slice
    · exact Errs.ok
  unfold decode7Bit
  refine key _ _ ?_
  by_cases h : udhl > 0
  · simp only [if_pos h]
    by_cases h' : udhl % 7 ≠ 0
    · simp only [if_pos h']
      obtain ⟨r, hr, e⟩ := unpack_length src (7 - udhl % 7) (by omega)
      omega
    · simp only [if_neg h']
      obtain ⟨r, hr, e⟩ := unpack_length src 0 (by omega)
      omega
  · simp only [if_neg h]
    obtain ⟨r, hr, e⟩ := unpack_length src 0 (by omega)
    omega

def udL (coded udhi : Bool) : Causes :=
  [(some "udl", .short), (some "sm", .short), (some "ud", .long)] ++
  (if coded then [(some "alphabet", .unknown), (some "sm", .long), (some "sm", .odd)] else []) ++
  (if udhi then [(some "udh.ie", .short), (some "udh.ied", .short)] else [])

theorem alphabet_err (d : UInt8) (a : Alphabet) (e : Err) (h : DCS.Alphabet d = (a, some e)) : e = .invalid := by
  have : ∀ d : UInt8, ∀ e ∈ (DCS.Alphabet d).2, e = .invalid := by
    apply forall_u8; decide +kernel
  exact this d e (by rw [h]; rfl)

theorem errs_decodeUserData (t : TPDU) (src : Bytes) (coded : Bool) (hc : coded = false → t.DCS = DCS.Dcs8BitData) :
    Errs (udL coded t.UDHI) (t.decodeUserData src) := by
  unfold TPDU.decodeUserData
  split
  · exact Errs.fail .short (by cases coded <;> cases t.UDHI <;> decide +kernel) rfl
  rename_i hs0
  refine Errs.bind Errs.idx fun l hl => ?_
  simp only
  split
  · exact Errs.ok
  rename_i hl0
  split
  · rename_i a e he
    rw [alphabet_err _ _ _ he]
    rcases Bool.eq_false_or_eq_true coded with hc' | hc'
    · subst hc'
      exact Errs.fail .unknown (by cases t.UDHI <;> decide +kernel) rfl
    · exfalso
      unfold TPDU.Alphabet at he
      rw [hc hc'] at he
      cases he
  rename_i alphabet ha
  have hdr : src ≠ [] → (1 < src.length) → Errs (udL coded t.UDHI) (
      if t.UDHI then do
        let s ← slice src (1 : Nat) src.length
        wrapD "udh" 1 (UDH.UnmarshalBinary s)
      else .ok ([], 0) : M (Model.UDH × Nat)) := by
    intro _ h1
    split
    · rename_i hu
      refine Errs.bind Errs.slice fun s hs => Errs.wrapD (errs_udh s ?_) ?_
      · rw [slice_ok src 1 src.length (by omega) (by omega)] at hs
        cases hs
        intro h
        have := congrArg List.length h
        simp at this
        omega
      · rw [hu]; cases coded <;> decide +kernel
    · exact Errs.ok
  by_cases h7 : alphabet = .a7Bit
  · have hcd : coded = true := by
      rcases Bool.eq_false_or_eq_true coded with hc' | hc'
      · exact hc'
      · exfalso
        unfold TPDU.Alphabet at ha
        rw [hc hc', h7] at ha
        revert ha; decide +kernel
    subst hcd
    simp only [if_pos h7]
    by_cases h1 : src.length < 1 + (l.toNat * 7 + 7) / 8
    · rw [if_pos h1]; exact Errs.fail .short (by cases t.UDHI <;> decide +kernel) rfl
    rw [if_neg h1]
    by_cases h2 : src.length > 1 + (l.toNat * 7 + 7) / 8
    · rw [if_pos h2]; exact Errs.fail .long (by cases t.UDHI <;> decide +kernel) rfl
    rw [if_neg h2]
    refine Errs.bind (hdr (by rintro rfl; simp at hs0) (by omega)) fun r hr => ?_
    obtain ⟨udh, udhl⟩ := r
    simp only
    have hle : 1 + udhl ≤ src.length := by
      split at hr
      · obtain ⟨s, hs, hr⟩ := bind_eq_ok.1 hr
        rw [slice_ok src 1 src.length (by omega) (by omega)] at hs
        cases hs
        have := safe_udh ((src.take src.length).drop 1)
        rw [wrapD_eq_ok] at hr
        rw [hr] at this
        have h2 : udhl ≤ _ := this.2
        simp at h2
        omega
      · cases hr
        omega
    split
    · exact Errs.ok
    refine Errs.bind Errs.slice fun s hs => ?_
    rw [slice_ok src _ src.length (by omega) (by omega)] at hs
    cases hs
    refine Errs.bind (Errs.wrapD (errs_decode7Bit _ _ _ ?_ ?_) ?_) fun _ _ => Errs.ok
    · intro hh
      have := congrArg List.length hh
      simp at this
      omega
    · simp
      omega
    · cases t.UDHI <;> decide +kernel
  · simp only [if_neg h7]
    by_cases h1 : src.length < 1 + l.toNat
    · rw [if_pos h1]; exact Errs.fail .short (by cases coded <;> cases t.UDHI <;> decide +kernel) rfl
    rw [if_neg h1]
    by_cases h2 : src.length > 1 + l.toNat
    · rw [if_pos h2]; exact Errs.fail .long (by cases coded <;> cases t.UDHI <;> decide +kernel) rfl
    rw [if_neg h2]
    refine Errs.bind (hdr (by rintro rfl; simp at hs0) (by omega)) fun r hr => ?_
    obtain ⟨udh, udhl⟩ := r
    simp only
    split
    · exact Errs.ok
    refine Errs.bind Errs.slice fun s hs => ?_
    split
    · rename_i hu
      rcases Bool.eq_false_or_eq_true coded with hc' | hc'
      · subst hc'
        refine Errs.fail .odd ?_ rfl
        show (some "sm", Cause.odd) ∈ _
        cases t.UDHI <;> decide +kernel
      · exfalso
        unfold TPDU.Alphabet at ha
        rw [hc hc', hu.1] at ha
        revert ha; decide +kernel
    · exact Errs.ok

theorem errs_readByte (b : Bytes) : Errs [(none, .short)] (TPDU.readByte b) := by
  unfold TPDU.readByte
  split
  · exact Errs.fail .short (by simp [errKey]) rfl
  · exact Errs.ok

theorem errs_readAt {L : Causes} (f : String) (src : Bytes) (ri : Nat) (h : (some f, Cause.short) ∈ L) :
    Errs L (TPDU.readAt f src ri) := by
  unfold TPDU.readAt
  split
  · exact Errs.fail .short (by simpa [errKey, newDecodeError] using h) rfl
  · exact Errs.idx

theorem errs_optionals {L : Causes} (t : TPDU) (src : Bytes) (ri : Nat) (h1 : (some "pid", Cause.short) ∈ L) (h2 : (some "dcs", Cause.short) ∈ L)
    (h3 : ∀ p ∈ udL true t.UDHI, (some (sub "ud" p.1), p.2) ∈ L) : Errs L (t.unmarshalOptionals src ri) := by
  unfold TPDU.unmarshalOptionals
  refine Errs.bind ?_ fun r hr => ?_
  · split
    · exact Errs.bind (errs_readAt _ _ _ h1) fun _ _ => Errs.ok
    · exact Errs.ok
  obtain ⟨t1, ri1⟩ := r
  have e1 : t1.UDHI = t.UDHI := by
    split at hr
    · obtain ⟨b, _, hr⟩ := bind_eq_ok.1 hr
      cases hr; rfl
    · cases hr; rfl
  simp only
  refine Errs.bind ?_ fun r hr => ?_
  · split
    · exact Errs.bind (errs_readAt _ _ _ h2) fun _ _ => Errs.ok
    · exact Errs.ok
  obtain ⟨t2, ri2⟩ := r
  have e2 : t2.UDHI = t1.UDHI := by
    split at hr
    · obtain ⟨b, _, hr⟩ := bind_eq_ok.1 hr
      cases hr; rfl
    · cases hr; rfl
  simp only
  split
  · refine Errs.bind Errs.slice fun s _ => Errs.wrapD (errs_decodeUserData t2 s true (by simp)) ?_
    rw [e2, e1]
    exact h3
  · exact Errs.ok

/-- The failures of the type as a list of `Causes`. -/
def causes (name : String) (udhi : Bool) (vpf : Nat) : Causes := (failures name udhi vpf).map fun p => (some p.1, p.2)

variable (t : TPDU) (src : Bytes)

theorem errs_command : Errs (causes "SmsCommand" t.UDHI 0) (t.unmarshalCommand src) := by
  unfold TPDU.unmarshalCommand
  simp only
  generalize hu : t.UDHI = u
  refine Errs.bind (Errs.wrapD (errs_readByte _) (by cases u <;> decide +kernel)) fun r _ => ?_
  refine Errs.bind (Errs.wrapD (errs_readByte _) (by cases u <;> decide +kernel)) fun r _ => ?_
  refine Errs.bind (Errs.wrapD (errs_readByte _) (by cases u <;> decide +kernel)) fun r _ => ?_
  refine Errs.bind (Errs.wrapD (errs_readByte _) (by cases u <;> decide +kernel)) fun r _ => ?_
  refine Errs.bind (Errs.wrapD (errs_address _) (by cases u <;> decide +kernel)) fun r _ => ?_
  refine Errs.wrapD (errs_decodeUserData _ _ false (fun _ => rfl)) ?_
  show ∀ p ∈ udL false t.UDHI, _
  rw [hu]
  cases u <;> decide +kernel

theorem errs_deliver : Errs (causes "SmsDeliver" t.UDHI 0) (t.unmarshalDeliver src) := by
  unfold TPDU.unmarshalDeliver
  simp only
  generalize hu : t.UDHI = u
  refine Errs.bind (Errs.wrapD (errs_address _) (by cases u <;> decide +kernel)) fun r _ => ?_
  refine Errs.bind Errs.slice fun b _ => ?_
  refine Errs.bind (Errs.wrapD (errs_readByte _) (by cases u <;> decide +kernel)) fun r _ => ?_
  refine Errs.bind (Errs.wrapD (errs_readByte _) (by cases u <;> decide +kernel)) fun r _ => ?_
  refine Errs.bind (Errs.wrapD (errs_timestamp _) (by cases u <;> decide +kernel)) fun r _ => ?_
  refine Errs.wrapD (errs_decodeUserData _ _ true (by simp)) ?_
  show ∀ p ∈ udL true t.UDHI, _
  rw [hu]
  cases u <;> decide +kernel

theorem errs_deliverReport : Errs (causes "SmsDeliverReport" t.UDHI 0) (t.unmarshalDeliverReport src) := by
  unfold TPDU.unmarshalDeliverReport
  generalize hu : t.UDHI = u
  refine Errs.bind (errs_readAt _ _ _ (by cases u <;> decide +kernel)) fun r _ => ?_
  refine Errs.bind (errs_readAt _ _ _ (by cases u <;> decide +kernel)) fun r _ => ?_
  refine errs_optionals _ _ _ (by cases u <;> decide +kernel) (by cases u <;> decide +kernel) ?_
  show ∀ p ∈ udL true t.UDHI, _
  rw [hu]
  cases u <;> decide +kernel

theorem errs_submitReport : Errs (causes "SmsSubmitReport" t.UDHI 0) (t.unmarshalSubmitReport src) := by
  unfold TPDU.unmarshalSubmitReport
  simp only
  generalize hu : t.UDHI = u
  refine Errs.bind (errs_readAt _ _ _ (by cases u <;> decide +kernel)) fun r _ => ?_
  refine Errs.bind (errs_readAt _ _ _ (by cases u <;> decide +kernel)) fun r _ => ?_
  split
  · exact Errs.fail .short (by cases u <;> decide +kernel) rfl
  refine Errs.bind Errs.slice fun b _ => ?_
  refine Errs.bind (Errs.wrapD (errs_timestamp _) (by cases u <;> decide +kernel)) fun r _ => ?_
  refine errs_optionals _ _ _ (by cases u <;> decide +kernel) (by cases u <;> decide +kernel) ?_
  show ∀ p ∈ udL true t.UDHI, _
  rw [hu]
  cases u <;> decide +kernel

theorem errs_statusReport : Errs (causes "SmsStatusReport" t.UDHI 0) (t.unmarshalStatusReport src) := by
  unfold TPDU.unmarshalStatusReport
  simp only
  generalize hu : t.UDHI = u
  refine Errs.bind (errs_readAt _ _ _ (by cases u <;> decide +kernel)) fun r _ => ?_
  refine Errs.bind Errs.slice fun b _ => ?_
  refine Errs.bind (Errs.wrapD (errs_address _) (by cases u <;> decide +kernel)) fun r _ => ?_
  split
  · refine Errs.fail .short ?_ rfl
    show (some "scts", Cause.short) ∈ _
    cases u <;> decide +kernel
  refine Errs.bind Errs.slice fun b _ => ?_
  refine Errs.bind (Errs.wrapD (errs_timestamp _) (by cases u <;> decide +kernel)) fun r _ => ?_
  split
  · refine Errs.fail .short ?_ rfl
    show (some "dt", Cause.short) ∈ _
    cases u <;> decide +kernel
  refine Errs.bind Errs.slice fun b _ => ?_
  refine Errs.bind (Errs.wrapD (errs_timestamp _) (by cases u <;> decide +kernel)) fun r _ => ?_
  refine Errs.bind (errs_readAt _ _ _ (by cases u <;> decide +kernel)) fun r _ => ?_
  split
  · refine Errs.bind Errs.idx fun pi _ => ?_
    refine errs_optionals _ _ _ (by cases u <;> decide +kernel) (by cases u <;> decide +kernel) ?_
    show ∀ p ∈ udL true t.UDHI, _
    rw [hu]
    cases u <;> decide +kernel
  · exact Errs.ok

theorem errs_submit : Errs (causes "SmsSubmit" t.UDHI (t.FirstOctet.toNat / 8 % 4)) (t.unmarshalSubmit src) := by
  unfold TPDU.unmarshalSubmit
  simp only
  generalize hu : t.UDHI = u
  have hn : t.FirstOctet.toNat / 8 % 4 < 4 := by omega
  have hv := fun s => errs_vp t.VP s t.FirstOctet
  generalize t.FirstOctet.toNat / 8 % 4 = n at hn hv
  have all : ∀ n < 4, ∀ u, (some "mr", Cause.short) ∈ causes "SmsSubmit" u n ∧ (some "pid", Cause.short) ∈ causes "SmsSubmit" u n ∧
      (some "dcs", Cause.short) ∈ causes "SmsSubmit" u n ∧ (∀ p ∈ addressL, (some (sub "da" p.1), p.2) ∈ causes "SmsSubmit" u n) ∧
      (∀ p ∈ vpL n, (some (sub "vp" p.1), p.2) ∈ causes "SmsSubmit" u n) ∧
      (∀ p ∈ udL true u, (some (sub "ud" p.1), p.2) ∈ causes "SmsSubmit" u n) := by
    intro n hn u
    rcases n with _ | _ | _ | _ | n
    case succ.succ.succ.succ => omega
    all_goals cases u <;> exact ⟨by decide +kernel, by decide +kernel, by decide +kernel, by decide +kernel, by decide +kernel, by decide +kernel⟩
  obtain ⟨h1, h2, h3, h4, h5, h6⟩ := all n hn u
  refine Errs.bind (errs_readAt _ _ _ h1) fun r _ => ?_
  refine Errs.bind Errs.slice fun b _ => ?_
  refine Errs.bind (Errs.wrapD (errs_address _) h4) fun r _ => ?_
  refine Errs.bind (errs_readAt _ _ _ h2) fun r _ => ?_
  refine Errs.bind (errs_readAt _ _ _ h3) fun r _ => ?_
  refine Errs.bind Errs.slice fun b _ => ?_
  refine Errs.bind (Errs.wrapD (hv _) h5) fun r _ => ?_
  refine Errs.bind Errs.slice fun b _ => ?_
  refine Errs.wrapD (errs_decodeUserData _ _ true (by simp)) ?_
  show ∀ p ∈ udL true t.UDHI, _
  rw [hu]
  exact h6

end Verif.Proofs
