import Verif.Model.Sms
import Verif.Proofs.Basic

/-! What a successful `UnmarshalBinary` leaves alone. -/

namespace Verif.Proofs
open Verif.Model

/-- If the computation succeeds, its result has the property. -/
def Post {α : Type} (m : M α) (P : α → Prop) : Prop := ∀ a, m = .ok a → P a

theorem Post.bind {α β : Type} {m : M α} {f : α → M β} {P : β → Prop} (h : ∀ a, Post (f a) P) : Post (m >>= f) P := by
  intro b hb
  obtain ⟨a, _, h'⟩ := bind_eq_ok.1 hb
  exact h a b h'

theorem Post.bind' {α β : Type} {m : M α} {f : α → M β} {Q : α → Prop} {P : β → Prop} (hm : Post m Q)
    (h : ∀ a, Q a → Post (f a) P) : Post (m >>= f) P := by
  intro b hb
  obtain ⟨a, ha, h'⟩ := bind_eq_ok.1 hb
  exact h a (hm a ha) b h'

theorem Post.fail {α : Type} {e : Err} {P : α → Prop} : Post (fail e : M α) P := by intro a h; cases h

theorem Post.ok {α : Type} {a : α} {P : α → Prop} (h : P a) : Post (.ok a : M α) P := by intro b hb; cases hb; exact h

theorem Post.wrapD {α : Type} {m : M α} {f : String} {o : Nat} {P : α → Prop} (h : Post m P) : Post (wrapD f o m) P := by
  intro a ha
  cases m with
  | ok b => cases ha; exact h _ rfl
  | error e => cases e <;> cases ha

/-- The first octet and the direction are those of `t`. -/
def SameKind (t t' : TPDU) : Prop := t'.FirstOctet = t.FirstOctet ∧ t'.Direction = t.Direction

theorem post_decodeUserData (t : TPDU) (src : Bytes) : Post (t.decodeUserData src) (SameKind t) := by
  unfold TPDU.decodeUserData
  split
  · exact .fail
  refine Post.bind ?_; intro _
  repeat' (first | exact .fail | exact .ok ⟨rfl, rfl⟩ | split | (refine Post.bind ?_; intro _) | simp only)

theorem post_optionals (t : TPDU) (src : Bytes) (ri : Nat) : Post (t.unmarshalOptionals src ri) (SameKind t) := by
  unfold TPDU.unmarshalOptionals
  refine Post.bind' (Q := fun x => SameKind t x.1) ?_ ?_
  · split
    · refine Post.bind ?_; intro _; exact .ok ⟨rfl, rfl⟩
    · exact .ok ⟨rfl, rfl⟩
  rintro ⟨t1, r1⟩ h1
  refine Post.bind' (Q := fun x => SameKind t x.1) ?_ ?_
  · split
    · refine Post.bind ?_; intro _; exact .ok h1
    · exact .ok h1
  rintro ⟨t2, r2⟩ h2
  simp only
  split
  · refine Post.bind ?_; intro _
    apply Post.wrapD
    intro t' ht
    obtain ⟨a, b⟩ := post_decodeUserData _ _ t' ht
    exact ⟨a.trans h2.1, b.trans h2.2⟩
  · exact .ok h2

theorem post_deliver (t : TPDU) (src : Bytes) : Post (t.unmarshalDeliver src) (SameKind t) := by
  unfold TPDU.unmarshalDeliver
  repeat' (first | exact .wrapD (post_decodeUserData _ _) | (refine Post.bind ?_; intro _))

theorem post_command (t : TPDU) (src : Bytes) : Post (t.unmarshalCommand src) (SameKind t) := by
  unfold TPDU.unmarshalCommand
  repeat' (first | exact .wrapD (post_decodeUserData _ _) | (refine Post.bind ?_; intro _))

theorem post_submit (t : TPDU) (src : Bytes) : Post (t.unmarshalSubmit src) (SameKind t) := by
  unfold TPDU.unmarshalSubmit
  repeat' (first | exact .wrapD (post_decodeUserData _ _) | (refine Post.bind ?_; intro _))

theorem post_deliverReport (t : TPDU) (src : Bytes) : Post (t.unmarshalDeliverReport src) (SameKind t) := by
  unfold TPDU.unmarshalDeliverReport
  repeat' (first | exact post_optionals _ _ _ | (refine Post.bind ?_; intro _))

theorem post_submitReport (t : TPDU) (src : Bytes) : Post (t.unmarshalSubmitReport src) (SameKind t) := by
  unfold TPDU.unmarshalSubmitReport
  refine Post.bind ?_; intro _
  refine Post.bind ?_; intro _
  simp only
  split
  · exact .fail
  repeat' (first | exact post_optionals _ _ _ | (refine Post.bind ?_; intro _))

theorem post_statusReport (t : TPDU) (src : Bytes) : Post (t.unmarshalStatusReport src) (SameKind t) := by
  unfold TPDU.unmarshalStatusReport
  refine Post.bind ?_; intro _
  refine Post.bind ?_; intro _
  refine Post.bind ?_; intro _
  simp only
  split
  · exact .fail
  refine Post.bind ?_; intro _
  refine Post.bind ?_; intro _
  split
  · exact .fail
  refine Post.bind ?_; intro _
  refine Post.bind ?_; intro _
  refine Post.bind ?_; intro _
  split
  · refine Post.bind ?_; intro _
    exact post_optionals _ _ _
  · exact .ok ⟨rfl, rfl⟩

/-- The types that `UnmarshalBinary` accepts. -/
def Known (st : UInt8) : Prop :=
  st = SmsDeliver ∨ st = SmsDeliverReport ∨ st = SmsSubmitReport ∨ st = SmsSubmit ∨ st = SmsStatusReport ∨ st = SmsCommand

theorem unmarshal_kind (t : TPDU) (src : Bytes) (t' : TPDU) (h : t.UnmarshalBinary src = .ok t') :
    src.head? = some t'.FirstOctet ∧ t'.Direction = t.Direction ∧ Known t'.SmsType := by
  cases src with
  | nil => cases h
  | cons fo body =>
    have key : ∀ (m : M TPDU) (st : UInt8), Known st → ({ t with FirstOctet := fo } : TPDU).SmsType = st →
        Post m (SameKind { t with FirstOctet := fo }) → m = .ok t' →
        (fo :: body).head? = some t'.FirstOctet ∧ t'.Direction = t.Direction ∧ Known t'.SmsType := by
      intro m st hk hst hp hm
      obtain ⟨h1, h2⟩ := hp t' hm
      refine ⟨by rw [h1]; rfl, h2, ?_⟩
      have : t'.SmsType = st := by rw [← hst]; unfold TPDU.SmsType; rw [h1, h2]
      rw [this]; exact hk
    unfold TPDU.UnmarshalBinary at h
    rw [if_neg (by simp)] at h
    simp only [idx_zero_cons, ok_bind] at h
    obtain ⟨b, _, h⟩ := bind_eq_ok.1 h
    split at h
    · rename_i hs; exact key _ _ (.inl rfl) hs (.wrapD (post_deliver _ _)) h
    split at h
    · rename_i hs; exact key _ _ (.inr (.inl rfl)) hs (.wrapD (post_deliverReport _ _)) h
    split at h
    · rename_i hs; exact key _ _ (.inr (.inr (.inl rfl))) hs (.wrapD (post_submitReport _ _)) h
    split at h
    · rename_i hs; exact key _ _ (.inr (.inr (.inr (.inl rfl)))) hs (.wrapD (post_submit _ _)) h
    split at h
    · rename_i hs; exact key _ _ (.inr (.inr (.inr (.inr (.inl rfl))))) hs (.wrapD (post_statusReport _ _)) h
    split at h
    · rename_i hs; exact key _ _ (.inr (.inr (.inr (.inr (.inr rfl))))) hs (.wrapD (post_command _ _)) h
    · cases h

end Verif.Proofs
