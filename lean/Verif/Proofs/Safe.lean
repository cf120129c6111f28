import Verif.Proofs.Basic
import Verif.Proofs.Semioctet
import Verif.Proofs.SevenBit
import Verif.Proofs.Gsm7
import Verif.Proofs.Bcd
import Verif.Proofs.UserData
import Verif.Model.Tpdu

/-! Decoding never panics and reports offsets inside the input. -/

namespace Verif.Proofs
open Verif.Model

/-- The offset carried by an error (0 for one that is not a decode error). -/
def errOff : Err → Nat
  | .decode _ o _ => o
  | _ => 0

/-- `m` does not panic; a success satisfies `P`; an error has an offset of at most `N`. -/
def Safe {α : Type} (N : Nat) (m : M α) (P : α → Prop) : Prop :=
  match m with
  | .ok a => P a
  | .error (.err e) => errOff e ≤ N
  | .error (.panic _) => False

theorem Safe.ok {α : Type} {N : Nat} {a : α} {P : α → Prop} (h : P a) : Safe N (.ok a) P := h

theorem Safe.bind {α β : Type} {N : Nat} {m : M α} {f : α → M β} {P : α → Prop} {Q : β → Prop}
    (h : Safe N m P) (hf : ∀ a, m = .ok a → P a → Safe N (f a) Q) : Safe N (m >>= f) Q := by
  unfold Safe at h
  split at h
  · exact hf _ rfl h
  · exact h
  · exact h.elim

theorem Safe.mono {α : Type} {N N' : Nat} {m : M α} {P Q : α → Prop} (h : Safe N m P) (hN : N ≤ N')
    (hP : ∀ a, P a → Q a) : Safe N' m Q := by
  unfold Safe at h ⊢
  split at h
  · exact hP _ h
  · exact Nat.le_trans h hN
  · exact h.elim

theorem errOff_new (f : String) (o : Nat) (e : Err) : errOff (newDecodeError f o e) ≤ o + errOff e := by
  unfold newDecodeError
  split
  · simp [errOff]; omega
  · simp [errOff]
  · simp [errOff]

theorem Safe.fail {α : Type} {N : Nat} {f : String} {o : Nat} {e : Err} {P : α → Prop} (h : o + errOff e ≤ N) :
    Safe N (fail (newDecodeError f o e) : M α) P := Nat.le_trans (errOff_new f o e) h

theorem Safe.wrapD {α : Type} {N n : Nat} {m : M α} {f : String} {o : Nat} {P : α → Prop} (h : Safe n m P) (hN : o + n ≤ N) :
    Safe N (wrapD f o m) P := by
  unfold Safe at h
  unfold Model.wrapD
  split at h
  · exact h
  · exact Safe.fail (by omega)
  · exact h.elim

theorem Safe.idx {α : Type} {N : Nat} {l : List α} {i : Nat} (h : i < l.length) : Safe N (idx l (i : Int)) (fun _ => True) := by
  rw [idx_getElem l i h]; trivial

theorem Safe.slice {α : Type} {N : Nat} {l : List α} {a b : Nat} (h1 : a ≤ b) (h2 : b ≤ l.length) :
    Safe N (slice l (a : Int) (b : Int)) (fun r => r.length = b - a) := by
  rw [slice_ok l a b h1 h2]
  show _ = _
  simp; omega

theorem safe_bcd (o : UInt8) : Safe 0 (Bcd.Decode o) (fun _ => True) := by
  unfold Bcd.Decode
  simp only
  split
  · exact Nat.le_refl 0
  · trivial

theorem safe_bcdS (o : UInt8) : Safe 0 (Bcd.DecodeSigned o) (fun _ => True) := by
  unfold Bcd.DecodeSigned
  simp only
  split
  · exact Nat.le_refl 0
  · split <;> trivial

theorem safe_timestamp (src : Bytes) : Safe 0 (Timestamp.UnmarshalBinary src) (fun _ => 7 ≤ src.length) := by
  unfold Timestamp.UnmarshalBinary
  split
  · exact Nat.le_refl 0
  · rename_i h
    refine Safe.bind (Safe.idx (i := 0) (by omega)) fun _ _ _ => Safe.bind (safe_bcd _) fun _ _ _ => ?_
    refine Safe.bind (Safe.idx (i := 1) (by omega)) fun _ _ _ => Safe.bind (safe_bcd _) fun _ _ _ => ?_
    refine Safe.bind (Safe.idx (i := 2) (by omega)) fun _ _ _ => Safe.bind (safe_bcd _) fun _ _ _ => ?_
    refine Safe.bind (Safe.idx (i := 3) (by omega)) fun _ _ _ => Safe.bind (safe_bcd _) fun _ _ _ => ?_
    refine Safe.bind (Safe.idx (i := 4) (by omega)) fun _ _ _ => Safe.bind (safe_bcd _) fun _ _ _ => ?_
    refine Safe.bind (Safe.idx (i := 5) (by omega)) fun _ _ _ => Safe.bind (safe_bcd _) fun _ _ _ => ?_
    refine Safe.bind (Safe.idx (i := 6) (by omega)) fun _ _ _ => Safe.bind (safe_bcdS _) fun _ _ _ => ?_
    exact Nat.le_of_not_lt h

theorem safe_gsm7 (d : Gsm7.Decoder) (src : Bytes) : Safe 0 (d.Decode src) (fun _ => True) := by
  rw [decoder_decode_eq]
  have tot : ∀ d' : Gsm7.Decoder, d'.strict = false → ∃ x, d'.loop src false = .ok x := by
    intro d' h
    obtain ⟨rs, h1, _⟩ := decoder_loop_total d' h src false
    exact ⟨_, h1⟩
  by_cases h : d.strict = true
  · have e : d = { d with strict := true } := by cases d; simp only at h; subst h; rfl
    rw [e]
    rcases strict_dichotomy d src false with h | ⟨pre, g, post, _, _, e3, _⟩
    · obtain ⟨x, hx⟩ := tot { d with strict := false } rfl
      rw [h, hx]; trivial
    · rw [e3]; exact Nat.le_refl 0
  · obtain ⟨x, hx⟩ := tot d (by simpa using h)
    rw [hx]; trivial

theorem semi_decode_ok (n : Nat) (src : Bytes) : ∃ r, Semioctet.Decode n src = .ok r ∧ r.read ≤ src.length ∧
    ∀ e, r.digits = .error e → errOff e = 0 := by
  obtain ⟨r, k, h1, h2, h3, _, h5⟩ := decodeLoop_spec n src [] 0 (by simp) (by simp [Spec.Digits])
  refine ⟨r, h1, by omega, fun e he => ?_⟩
  rw [(h5 e he).1]; rfl

theorem safe_address (src : Bytes) : Safe src.length (Address.UnmarshalBinary src) (fun r => r.2 ≤ src.length) := by
  unfold Address.UnmarshalBinary
  split
  · exact Safe.fail (by simp [errOff])
  rename_i h
  refine Safe.bind (Safe.idx (i := 0) (by omega)) fun l _ _ => ?_
  refine Safe.bind (Safe.idx (i := 1) (by omega)) fun toa _ _ => ?_
  simp only
  split
  · exact Safe.fail (by simp [errOff]; omega)
  rename_i hl
  split
  · refine Safe.bind (Safe.slice (by omega) (by omega)) fun s _ hs => ?_
    have tail : ∀ u, Safe src.length (do
        let baddr ← wrapD "addr" 2 ((Gsm7.NewDecoder []).WithoutExt.Strict.Decode u)
        pure ((⟨toa, baddr⟩ : Address), 2 + (l.toNat + 1) / 2)) (fun r => r.2 ≤ src.length) := by
      intro u
      refine Safe.bind (Safe.wrapD (safe_gsm7 _ _) (by omega)) fun b _ _ => ?_
      show 2 + (l.toNat + 1) / 2 ≤ _
      omega
    split
    · rename_i hu
      have e : ((Gsm7.Unpack7Bit s 0).length : Int) - 1 = (((Gsm7.Unpack7Bit s 0).length - 1 : Nat) : Int) := by omega
      rw [e]
      exact Safe.bind (Safe.slice (a := 0) (by omega) (by omega)) fun u _ _ => tail u
    · exact tail _
  · refine Safe.bind (Safe.slice (by omega) (by omega)) fun s _ hs => ?_
    obtain ⟨r, hr, hrd, hre⟩ := semi_decode_ok l.toNat s
    rw [hr]
    simp only [ok_bind]
    split
    · rename_i e he
      exact Safe.fail (by rw [hre e he]; omega)
    · split
      · exact Safe.fail (by simp [errOff]; omega)
      · show 2 + r.read ≤ _
        omega

theorem safe_checkZero (src : Bytes) (h : 7 ≤ src.length) : ∀ fuel i, Safe src.length (ValidityPeriod.checkZero src i fuel) (fun _ => True) := by
  intro fuel
  induction fuel with
  | zero => intro i; trivial
  | succ fuel ih =>
    intro i
    unfold ValidityPeriod.checkZero
    split
    · refine Safe.bind (Safe.idx (by omega)) fun b _ _ => ?_
      split
      · exact Safe.fail (by simp [errOff]; omega)
      · exact ih _
    · trivial

theorem safe_vp (v : ValidityPeriod) (src : Bytes) (vpf : UInt8) :
    Safe src.length (v.UnmarshalBinary src vpf) (fun r => r.2 ≤ src.length) := by
  unfold ValidityPeriod.UnmarshalBinary
  simp only
  split
  · refine Safe.bind ((safe_timestamp src).mono (by omega) (fun _ h => h)) fun t _ h => ?_
    exact h
  split
  · refine Safe.bind (P := fun r => r.2 ≤ src.length) ?_ fun r _ h => h
    unfold ValidityPeriod.unmarshalVPEnhanced
    split
    · exact Nat.zero_le _
    rename_i h7
    refine Safe.bind (Safe.idx (i := 0) (by omega)) fun efi _ _ => ?_
    simp only
    refine Safe.bind (P := fun _ => True) ?_ fun du _ _ => ?_
    · split
      · trivial
      split
      · exact Safe.bind (Safe.idx (i := 1) (by omega)) fun _ _ _ => trivial
      split
      · exact Safe.bind (Safe.idx (i := 1) (by omega)) fun _ _ _ => trivial
      split
      · refine Safe.bind (Safe.idx (i := 1) (by omega)) fun _ _ _ => Safe.bind (Safe.wrapD (safe_bcd _) (by omega)) fun _ _ _ => ?_
        refine Safe.bind (Safe.idx (i := 2) (by omega)) fun _ _ _ => Safe.bind (Safe.wrapD (safe_bcd _) (by omega)) fun _ _ _ => ?_
        exact Safe.bind (Safe.idx (i := 3) (by omega)) fun _ _ _ => Safe.bind (Safe.wrapD (safe_bcd _) (by omega)) fun _ _ _ => trivial
      · exact Safe.fail (by simp [errOff])
    · refine Safe.bind (safe_checkZero src (by omega) _ _) fun _ _ _ => ?_
      show 7 ≤ _
      omega
  split
  · split
    · exact Nat.zero_le _
    · refine Safe.bind (Safe.idx (i := 0) (by omega)) fun _ _ _ => ?_
      show 1 ≤ _
      omega
  split
  · exact Nat.zero_le _
  · exact Safe.fail (by simp [errOff])

theorem safe_udhLoop (src : Bytes) (udhl : Nat) (h : udhl ≤ src.length) : ∀ fuel ri, 1 ≤ fuel → udhl + 1 ≤ fuel + ri →
    Safe src.length (UDH.unmarshalLoop src udhl fuel ri) (fun _ => True) := by
  intro fuel
  induction fuel with
  | zero => intro _ h; omega
  | succ fuel ih =>
    intro ri _ hf
    unfold UDH.unmarshalLoop
    split
    · split
      · exact Safe.fail (by simp [errOff]; omega)
      · refine Safe.bind (Safe.idx (by omega)) fun id _ _ => ?_
        refine Safe.bind (Safe.idx (by omega)) fun l _ _ => ?_
        simp only
        split
        · exact Safe.fail (by simp [errOff]; omega)
        · refine Safe.bind (Safe.slice (by omega) (by omega)) fun d _ _ => ?_
          exact Safe.bind (ih _ (by omega) (by omega)) fun _ _ _ => trivial
    · trivial

theorem safe_udh (src : Bytes) : Safe src.length (UDH.UnmarshalBinary src) (fun r => 1 ≤ r.2 ∧ r.2 ≤ src.length) := by
  unfold UDH.UnmarshalBinary
  split
  · exact Safe.fail (by simp [errOff])
  refine Safe.bind (Safe.idx (i := 0) (by omega)) fun l _ _ => ?_
  simp only
  split
  · exact Safe.fail (by simp [errOff]; omega)
  · refine Safe.bind (safe_udhLoop src _ (by omega) _ _ (by omega) (by omega)) fun _ _ _ => ?_
    show 1 ≤ l.toNat + 1 ∧ l.toNat + 1 ≤ _
    omega

/-- The declared number of septets is at least what the header takes, so that the index of the septet to
check is never negative. -/
theorem safe_decode7Bit (sml udhl : Nat) (src : Bytes) (hne : src ≠ []) (hl : udhl + src.length = (sml * 7 + 7) / 8) :
    Safe 0 (decode7Bit sml udhl src) (fun _ => True) := by
  have hlen : 0 < src.length := by cases src with | nil => exact absurd rfl hne | cons => simp
  have key : ∀ (sm : Bytes) (k : Int), 0 ≤ k → Safe 0 (
      if (sm.length : Int) < k then fail .underflow
      else if (sm.length : Int) > k then do
        if (sm.length : Int) > k + 1 then fail .overlength
        else
          let b ← idx sm k
          if b ≠ 0 then fail .overlength
          else slice sm 0 k
      else .ok sm : M Bytes) (fun _ => True) := by
    intro sm k hk
    obtain ⟨n, rfl⟩ := Int.eq_ofNat_of_zero_le hk
    split
    · exact Nat.zero_le _
    split
    · split
      · exact Nat.zero_le _
      · refine Safe.bind (Safe.idx (by omega)) fun b _ _ => ?_
        split
        · exact Nat.zero_le _
        · exact (Safe.slice (a := 0) (by omega) (by omega)).mono (Nat.le_refl _) (fun _ _ => trivial)
    · trivial
  unfold decode7Bit
  refine key _ _ ?_
  by_cases h : udhl > 0
  · simp only [if_pos h]
    by_cases h' : udhl % 7 ≠ 0
    · simp only [if_pos h']; omega
    · simp only [if_neg h']; omega
  · simp only [if_neg h]; omega

theorem alphabet_err_off (d : UInt8) (a : Alphabet) (e : Err) (h : DCS.Alphabet d = (a, some e)) : errOff e = 0 := by
  have : ∀ d : UInt8, ∀ e ∈ (DCS.Alphabet d).2, errOff e = 0 := by
    apply forall_u8; decide +kernel
  exact this d e (by rw [h]; rfl)

theorem safe_decodeUserData (t : TPDU) (src : Bytes) : Safe src.length (t.decodeUserData src) (fun _ => True) := by
  unfold TPDU.decodeUserData
  split
  · exact Safe.fail (by simp [errOff])
  refine Safe.bind (Safe.idx (i := 0) (by omega)) fun l _ _ => ?_
  simp only
  split
  · trivial
  split
  · rename_i a e he
    exact Safe.fail (by rw [alphabet_err_off _ _ _ he]; omega)
  rename_i alphabet ha
  have hdr : Safe src.length (
      if t.UDHI then do
        let s ← slice src (1 : Nat) src.length
        wrapD "udh" 1 (UDH.UnmarshalBinary s)
      else .ok ([], 0) : M (Model.UDH × Nat)) (fun r => 1 + r.2 ≤ src.length) := by
    split
    · refine Safe.bind (Safe.slice (by omega) (by omega)) fun s _ hs => ?_
      exact (Safe.wrapD (safe_udh s) (by omega)).mono (Nat.le_refl _) (fun a h => by omega)
    · show 1 + 0 ≤ _
      omega
  by_cases h7 : alphabet = .a7Bit
  · simp only [if_pos h7]
    by_cases h1 : src.length < 1 + (l.toNat * 7 + 7) / 8
    · rw [if_pos h1]; exact Safe.fail (by simp [errOff]; omega)
    rw [if_neg h1]
    by_cases h2 : src.length > 1 + (l.toNat * 7 + 7) / 8
    · rw [if_pos h2]; exact Safe.fail (by simp [errOff]; omega)
    rw [if_neg h2]
    refine Safe.bind hdr fun r _ hr => ?_
    obtain ⟨udh, udhl⟩ := r
    simp only at hr ⊢
    split
    · trivial
    refine Safe.bind (Safe.slice (by omega) (by omega)) fun s _ hs => ?_
    refine Safe.bind (Safe.wrapD (safe_decode7Bit _ _ _ ?_ ?_) (by omega)) fun _ _ _ => trivial
    · intro hh; subst hh; simp at hs; omega
    · omega
  · simp only [if_neg h7]
    by_cases h1 : src.length < 1 + l.toNat
    · rw [if_pos h1]; exact Safe.fail (by simp [errOff]; omega)
    rw [if_neg h1]
    by_cases h2 : src.length > 1 + l.toNat
    · rw [if_pos h2]; exact Safe.fail (by simp [errOff]; omega)
    rw [if_neg h2]
    refine Safe.bind hdr fun r _ hr => ?_
    obtain ⟨udh, udhl⟩ := r
    simp only at hr ⊢
    split
    · trivial
    refine Safe.bind (Safe.slice (by omega) (by omega)) fun s _ hs => ?_
    split
    · exact Safe.fail (by simp [errOff]; omega)
    · trivial

theorem safe_readByte (b : Bytes) : Safe 0 (TPDU.readByte b) (fun r => b = r.1 :: r.2) := by
  unfold TPDU.readByte
  cases b with
  | nil => exact Nat.zero_le _
  | cons x b => rfl

theorem safe_readAt (f : String) (src : Bytes) (ri : Nat) (h : ri ≤ src.length) :
    Safe src.length (TPDU.readAt f src ri) (fun _ => ri < src.length) := by
  unfold TPDU.readAt
  split
  · exact Safe.fail (by simp [errOff]; omega)
  · exact (Safe.idx (by omega)).mono (Nat.le_refl _) (fun _ _ => by omega)

theorem safe_optionals (t : TPDU) (src : Bytes) (ri : Nat) (h : ri ≤ src.length) :
    Safe src.length (t.unmarshalOptionals src ri) (fun _ => True) := by
  unfold TPDU.unmarshalOptionals
  refine Safe.bind (P := fun r => r.2 ≤ src.length) ?_ fun r _ hr => ?_
  · split
    · exact Safe.bind (safe_readAt _ _ _ h) fun _ _ h => by show ri + 1 ≤ _; omega
    · exact h
  obtain ⟨t, ri⟩ := r
  simp only at hr ⊢
  refine Safe.bind (P := fun r => r.2 ≤ src.length) ?_ fun r _ hr => ?_
  · split
    · exact Safe.bind (safe_readAt _ _ _ hr) fun _ _ h => by show ri + 1 ≤ _; omega
    · exact hr
  obtain ⟨t, ri⟩ := r
  simp only at hr ⊢
  split
  · refine Safe.bind (Safe.slice hr (by omega)) fun s _ hs => ?_
    exact Safe.wrapD (safe_decodeUserData _ s) (by omega)
  · trivial

theorem safe_command (t : TPDU) (src : Bytes) : Safe src.length (t.unmarshalCommand src) (fun _ => True) := by
  unfold TPDU.unmarshalCommand
  simp only
  refine Safe.bind (Safe.wrapD (safe_readByte _) (by omega)) fun r _ h1 => ?_
  obtain ⟨mr, b1⟩ := r; simp only at h1 ⊢
  have l1 := congrArg List.length h1; simp only [List.length_cons] at l1
  refine Safe.bind (Safe.wrapD (safe_readByte _) (by omega)) fun r _ h2 => ?_
  obtain ⟨pid, b2⟩ := r; simp only at h2 ⊢
  have l2 := congrArg List.length h2; simp only [List.length_cons] at l2
  refine Safe.bind (Safe.wrapD (safe_readByte _) (by omega)) fun r _ h3 => ?_
  obtain ⟨ct, b3⟩ := r; simp only at h3 ⊢
  have l3 := congrArg List.length h3; simp only [List.length_cons] at l3
  refine Safe.bind (Safe.wrapD (safe_readByte _) (by omega)) fun r _ h4 => ?_
  obtain ⟨mn, b4⟩ := r; simp only at h4 ⊢
  have l4 := congrArg List.length h4; simp only [List.length_cons] at l4
  refine Safe.bind (Safe.wrapD (safe_address _) (by omega)) fun r _ h5 => ?_
  obtain ⟨da, n⟩ := r; simp only at h5 ⊢
  exact Safe.wrapD (safe_decodeUserData _ _) (by simp; omega)

theorem safe_deliver (t : TPDU) (src : Bytes) : Safe src.length (t.unmarshalDeliver src) (fun _ => True) := by
  unfold TPDU.unmarshalDeliver
  refine Safe.bind (Safe.wrapD (safe_address _) (by omega)) fun r _ h5 => ?_
  obtain ⟨da, n⟩ := r; simp only at h5 ⊢
  refine Safe.bind (Safe.slice h5 (by omega)) fun b0 _ hs => ?_
  refine Safe.bind (Safe.wrapD (safe_readByte _) (by omega)) fun r _ h1 => ?_
  obtain ⟨pid, b1⟩ := r; simp only at h1 ⊢
  have l1 := congrArg List.length h1; simp only [List.length_cons] at l1
  refine Safe.bind (Safe.wrapD (safe_readByte _) (by omega)) fun r _ h2 => ?_
  obtain ⟨dcs, b2⟩ := r; simp only at h2 ⊢
  have l2 := congrArg List.length h2; simp only [List.length_cons] at l2
  refine Safe.bind (Safe.wrapD (safe_timestamp _) (by omega)) fun _ _ h => ?_
  exact Safe.wrapD (safe_decodeUserData _ _) (by simp; omega)

theorem safe_submit (t : TPDU) (src : Bytes) : Safe src.length (t.unmarshalSubmit src) (fun _ => True) := by
  unfold TPDU.unmarshalSubmit
  simp only
  refine Safe.bind (safe_readAt _ _ _ (by omega)) fun mr _ h1 => ?_
  refine Safe.bind (Safe.slice (by omega) (by omega)) fun s _ hs => ?_
  refine Safe.bind (Safe.wrapD (safe_address _) (by omega)) fun r _ h5 => ?_
  obtain ⟨da, n⟩ := r; simp only at h5 ⊢
  refine Safe.bind (safe_readAt _ _ _ (by omega)) fun pid _ h2 => ?_
  refine Safe.bind (safe_readAt _ _ _ (by omega)) fun dcs _ h3 => ?_
  refine Safe.bind (Safe.slice (by omega) (by omega)) fun s _ hs => ?_
  refine Safe.bind (Safe.wrapD (safe_vp _ _ _) (by omega)) fun r _ h6 => ?_
  obtain ⟨vp, n⟩ := r; simp only at h6 ⊢
  refine Safe.bind (Safe.slice (by omega) (by omega)) fun s _ hs => ?_
  exact Safe.wrapD (safe_decodeUserData _ _) (by omega)

theorem safe_deliverReport (t : TPDU) (src : Bytes) : Safe src.length (t.unmarshalDeliverReport src) (fun _ => True) := by
  unfold TPDU.unmarshalDeliverReport
  refine Safe.bind (safe_readAt _ _ _ (by omega)) fun fcs _ h1 => ?_
  refine Safe.bind (safe_readAt _ _ _ (by omega)) fun pi _ h2 => ?_
  exact safe_optionals _ _ _ (by omega)

theorem safe_submitReport (t : TPDU) (src : Bytes) : Safe src.length (t.unmarshalSubmitReport src) (fun _ => True) := by
  unfold TPDU.unmarshalSubmitReport
  simp only
  refine Safe.bind (safe_readAt _ _ _ (by omega)) fun fcs _ h1 => ?_
  refine Safe.bind (safe_readAt _ _ _ (by omega)) fun pi _ h2 => ?_
  split
  · exact Safe.fail (by simp [errOff]; omega)
  refine Safe.bind (Safe.slice (by omega) (by omega)) fun s _ hs => ?_
  refine Safe.bind (Safe.wrapD (safe_timestamp _) (by omega)) fun _ _ h => ?_
  exact safe_optionals _ _ _ (by omega)

theorem safe_statusReport (t : TPDU) (src : Bytes) : Safe src.length (t.unmarshalStatusReport src) (fun _ => True) := by
  unfold TPDU.unmarshalStatusReport
  simp only
  refine Safe.bind (safe_readAt _ _ _ (by omega)) fun mr _ h1 => ?_
  refine Safe.bind (Safe.slice (by omega) (by omega)) fun s _ hs => ?_
  refine Safe.bind (Safe.wrapD (safe_address _) (by omega)) fun r _ h5 => ?_
  obtain ⟨ra, n⟩ := r; simp only at h5 ⊢
  split
  · exact Safe.fail (by simp [errOff]; omega)
  refine Safe.bind (Safe.slice (by omega) (by omega)) fun s _ hs => ?_
  refine Safe.bind (Safe.wrapD (safe_timestamp _) (by omega)) fun _ _ h => ?_
  split
  · exact Safe.fail (by simp [errOff]; omega)
  refine Safe.bind (Safe.slice (by omega) (by omega)) fun s _ hs => ?_
  refine Safe.bind (Safe.wrapD (safe_timestamp _) (by omega)) fun _ _ h => ?_
  refine Safe.bind (safe_readAt _ _ _ (by omega)) fun st _ h2 => ?_
  split
  · refine Safe.bind (Safe.idx (by omega)) fun pi _ _ => ?_
    exact safe_optionals _ _ _ (by omega)
  · trivial

end Verif.Proofs
