import Verif.Model.Into
import Verif.Spec.Partly
import Verif.Proofs.Trailing

/-! For C98: decoding as a sequence of steps, one for each field. -/

namespace Verif.Proofs.Partly
open Verif.Model Verif.Spec Verif.Proofs Verif.Model.TPDU

theorem agree_refl (f : Field) (a : TPDU) : Agree f a a := by cases f <;> simp [Agree]
theorem agree_symm {f : Field} {a b : TPDU} (h : Agree f a b) : Agree f b a := by
  cases f <;> simp only [Agree] at h ⊢ <;> simp [h]
theorem agree_trans {f : Field} {a b c : TPDU} (h : Agree f a b) (h' : Agree f b c) : Agree f a c := by
  cases f <;> simp only [Agree] at h h' ⊢ <;> simp [h, h']

/-- The reading of a field, at a position; `spoil` is what its failure does. -/
structure Step where
  k : Field
  run : TPDU → Bytes → Nat → M (TPDU × Nat)
  spoil : TPDU → TPDU := id

/-- The steps in order; the position after them. -/
def exec : List Step → Bytes → Nat → TPDU → Except Fault Nat × TPDU
  | [], _, pos, t => (.ok pos, t)
  | S :: l, src, pos, t => match S.run t src pos with
    | .ok (t', pos') => exec l src pos' t'
    | .error f => (.error f, S.spoil t)

/-- Only the field of the step changes. -/
structure Only (k : Field) (t t' : TPDU) : Prop where
  dir : t'.Direction = t.Direction
  fo : t'.FirstOctet = t.FirstOctet
  rest : ∀ f, f ≠ k → Agree f t' t

structure Sound (S : Step) : Prop where
  only : ∀ {t src pos t' pos'}, S.run t src pos = .ok (t', pos') → Only S.k t t'
  spoil : ∀ t, Only S.k t (S.spoil t)
  error : ∀ {t src pos e}, S.run t src pos = .error (.err e) → ∃ o e', e = newDecodeError S.k.name o e'
  can : ∀ t (p : Bytes), ∃ x t', S.run t (p ++ x) p.length = .ok (t', (p ++ x).length)

/-- What follows the field does not matter. -/
structure Local (S : Step) : Prop where
  loc : ∀ {t src pos t' pos'}, S.run t src pos = .ok (t', pos') → pos ≤ src.length → pos ≤ pos' ∧ pos' ≤ src.length ∧
    ∀ src', src'.take pos' = src.take pos' → S.run t src' pos = .ok (t', pos')

theorem exec_append (l1 l2 : List Step) (src : Bytes) : ∀ (pos : Nat) (t : TPDU),
    exec (l1 ++ l2) src pos t = match exec l1 src pos t with
      | (.ok pos', t') => exec l2 src pos' t'
      | (.error f, t') => (.error f, t') := by
  induction l1 with
  | nil => intro pos t; rfl
  | cons S l1 ih =>
    intro pos t
    simp only [List.cons_append, exec]
    cases S.run t src pos with
    | error f => rfl
    | ok x => obtain ⟨t', pos'⟩ := x; exact ih pos' t'

/-- A failure happens in one of the steps, after those before it. -/
theorem exec_fail {l : List Step} {src : Bytes} : ∀ {pos : Nat} {t t' : TPDU} {f : Fault}, exec l src pos t = (.error f, t') →
    ∃ l1 S l2 pos1 t1, l = l1 ++ S :: l2 ∧ exec l1 src pos t = (.ok pos1, t1) ∧ S.run t1 src pos1 = .error f ∧ t' = S.spoil t1 := by
  induction l with
  | nil => intro pos t t' f h; cases h
  | cons S l ih =>
    intro pos t t' f h
    rw [exec] at h
    cases hr : S.run t src pos with
    | error g =>
      rw [hr] at h
      cases h
      exact ⟨[], S, l, pos, t, rfl, rfl, hr, rfl⟩
    | ok x =>
      obtain ⟨u, pos'⟩ := x
      rw [hr] at h
      obtain ⟨l1, S', l2, pos1, t1, h1, h2, h3, h4⟩ := ih h
      refine ⟨S :: l1, S', l2, pos1, t1, by rw [h1]; rfl, ?_, h3, h4⟩
      rw [exec, hr]
      exact h2

/-- Only the fields of the steps change. -/
structure OnlyIn (ks : List Field) (t t' : TPDU) : Prop where
  dir : t'.Direction = t.Direction
  fo : t'.FirstOctet = t.FirstOctet
  rest : ∀ f, f ∉ ks → Agree f t' t

theorem OnlyIn.mono {ks ks' : List Field} {t t' : TPDU} (h : OnlyIn ks t t') (hs : ∀ f ∈ ks, f ∈ ks') : OnlyIn ks' t t' :=
  ⟨h.dir, h.fo, fun f hf => h.rest f fun hm => hf (hs f hm)⟩

theorem OnlyIn.trans {ks : List Field} {t t' t'' : TPDU} (h : OnlyIn ks t t') (h' : OnlyIn ks t' t'') : OnlyIn ks t t'' :=
  ⟨h'.dir.trans h.dir, h'.fo.trans h.fo, fun f hf => agree_trans (h'.rest f hf) (h.rest f hf)⟩

theorem exec_only {l : List Step} (hl : ∀ S ∈ l, Sound S) {src : Bytes} : ∀ {pos pos' : Nat} {t t' : TPDU},
    exec l src pos t = (.ok pos', t') → OnlyIn (l.map (·.k)) t t' := by
  induction l with
  | nil => intro pos pos' t t' h; cases h; exact ⟨rfl, rfl, fun f _ => agree_refl f _⟩
  | cons S l ih =>
    intro pos pos' t t' h
    rw [exec] at h
    cases hr : S.run t src pos with
    | error g => rw [hr] at h; cases h
    | ok x =>
      obtain ⟨u, q⟩ := x
      rw [hr] at h
      have h1 := (hl S (by simp)).only hr
      have h2 := ih (fun S hS => hl S (by simp [hS])) h
      refine OnlyIn.trans (t' := u) ⟨h1.dir, h1.fo, fun f hf => h1.rest f (by rintro rfl; simp at hf)⟩ (h2.mono (by intro f hf; simp at hf ⊢; exact .inr hf))

theorem exec_local {l : List Step} (hl : ∀ S ∈ l, Local S) {src : Bytes} : ∀ {pos pos' : Nat} {t t' : TPDU},
    exec l src pos t = (.ok pos', t') → pos ≤ src.length → pos ≤ pos' ∧ pos' ≤ src.length ∧
      ∀ src', src'.take pos' = src.take pos' → exec l src' pos t = (.ok pos', t') := by
  induction l with
  | nil => intro pos pos' t t' h hp; cases h; exact ⟨Nat.le_refl _, hp, fun _ _ => rfl⟩
  | cons S l ih =>
    intro pos pos' t t' h hp
    rw [exec] at h
    cases hr : S.run t src pos with
    | error g => rw [hr] at h; cases h
    | ok x =>
      obtain ⟨u, q⟩ := x
      rw [hr] at h
      obtain ⟨a1, a2, a3⟩ := (hl S (by simp)).loc hr hp
      obtain ⟨b1, b2, b3⟩ := ih (fun S hS => hl S (by simp [hS])) h a2
      refine ⟨by omega, b2, fun src' hs => ?_⟩
      rw [exec, a3 src' (by
        have := congrArg (List.take q) hs
        rwa [List.take_take, List.take_take, Nat.min_eq_left b1] at this)]
      exact b3 src' hs

theorem exec_can {l : List Step} (hl : ∀ S ∈ l, Sound S) (hloc : ∀ S ∈ l.dropLast, Local S) : ∀ (p : Bytes) (t : TPDU),
    ∃ x t', exec l (p ++ x) p.length t = (.ok (p ++ x).length, t') := by
  induction l with
  | nil => intro p t; exact ⟨[], t, by simp [exec]⟩
  | cons S l ih =>
    intro p t
    obtain ⟨x, u, hx⟩ := (hl S (by simp)).can t p
    cases l with
    | nil => exact ⟨x, u, by simp only [exec]; rw [hx]⟩
    | cons S' l =>
      have hS : Local S := hloc S (by simp)
      obtain ⟨y, v, hy⟩ := ih (fun S hS => hl S (by simp [hS])) (fun S hS => hloc S (by simp [hS])) (p ++ x) u
      refine ⟨x ++ y, v, ?_⟩
      obtain ⟨_, _, a3⟩ := hS.loc hx (by simp)
      have := a3 (p ++ x ++ y) (by rw [List.take_append_of_le_length (by simp), List.take_length])
      rw [List.append_assoc] at this
      rw [exec, this]
      rw [← List.append_assoc]
      exact hy

/-! The steps. -/

def byteStep (k : Field) (e : Err) (set : UInt8 → TPDU → TPDU) (spoil : TPDU → TPDU := id) : Step where
  k := k
  run t src pos := match src[pos]? with
    | some b => .ok (set b t, pos + 1)
    | none => fail (newDecodeError k.name pos e)
  spoil := spoil

def addrStep (k : Field) (set : Address → TPDU → TPDU) : Step where
  k := k
  run t src pos := match wrapD k.name pos (Address.UnmarshalBinary (src.drop pos)) with
    | .ok (a, n) => .ok (set a t, pos + n)
    | .error f => .error f

def timeStep (k : Field) (set : GoTime → TPDU → TPDU) : Step where
  k := k
  run t src pos := match wrapD k.name pos (Timestamp.UnmarshalBinary (src.drop pos)) with
    | .ok a => .ok (set a t, pos + 7)
    | .error f => .error f

def vpStep : Step where
  k := .vp
  run t src pos := match wrapD "vp" pos (t.VP.UnmarshalBinary (src.drop pos) (FirstOctet.VPF t.FirstOctet)) with
    | .ok (a, n) => .ok ({ t with VP := a }, pos + n)
    | .error f => .error f
  spoil t := { t with VP := { t.VP with Format := VpfNotPresent } }

def setStep : Step where
  k := .dcs
  run t _ pos := .ok ({ t with DCS := DCS.Dcs8BitData }, pos)

def udStep : Step where
  k := .ud
  run t src pos := match wrapD "ud" pos (t.decodeUserData (src.drop pos)) with
    | .ok t' => .ok (t', src.length)
    | .error f => .error f

def optStep (c : UInt8 → Bool) (S : Step) : Step where
  k := S.k
  run t src pos := if c t.PI then S.run t src pos else .ok (t, pos)
  spoil := S.spoil

/-! Their properties. -/

theorem take_idx {src src' : Bytes} {n i : Nat} (h : src'.take n = src.take n) (hi : i < n) : src'[i]? = src[i]? := by
  have := congrArg (·[i]?) h
  simpa [List.getElem?_take, hi] using this

theorem idx_congr {src src' : Bytes} {i : Nat} (h : src'[i]? = src[i]?) : idx src' (i : Int) = idx src (i : Int) := by
  unfold idx; simp [h]

theorem take_drop_congr {src src' : Bytes} {n p : Nat} (h : src'.take (p + n) = src.take (p + n)) :
    (src'.drop p).take n = (src.drop p).take n := by
  rw [List.take_drop, List.take_drop, h]

theorem take_len {src src' : Bytes} {n : Nat} (h : src'.take n = src.take n) (hn : n ≤ src.length) : n ≤ src'.length := by
  have := congrArg List.length h
  simp at this; omega

theorem address_local {s s' : Bytes} {a : Address} {n : Nat} (h : Address.UnmarshalBinary s = .ok (a, n))
    (hs : s'.take n = s.take n) : Address.UnmarshalBinary s' = .ok (a, n) := by
  obtain ⟨hn, hl⟩ := address_len s (a, n) h
  simp only at hn hl
  have hl' := take_len hs hl
  have h1 : s = s.take n ++ s.drop n := (List.take_append_drop _ _).symm
  have h1' : s' = s.take n ++ s'.drop n := by rw [← hs]; exact (List.take_append_drop _ _).symm
  rw [h1']
  apply address_ext
  -- the octets of the address alone
  generalize hp : s.take n = p at *
  have hpl : p.length = n := by rw [← hp, List.length_take]; omega
  have e0 : idx s 0 = idx p 0 := by rw [h1]; exact idx_append_left _ _ 0 (by omega)
  have e1 : idx s 1 = idx p 1 := by rw [h1]; exact idx_append_left _ _ 1 (by omega)
  unfold Address.UnmarshalBinary at h ⊢
  rw [if_neg (by omega)] at h
  rw [if_neg (by omega), ← e0, ← e1]
  obtain ⟨l, hl0, h⟩ := bind_eq_ok.mp h
  have hol : n = 2 + (l.toNat + 1) / 2 := by rw [hn, octet_of (idx_eq_ok (i := 0) hl0)]
  rw [hl0]
  simp only [ok_bind] at h ⊢
  obtain ⟨toa, ht, h⟩ := bind_eq_ok.mp h
  rw [ht]
  simp only [ok_bind] at h ⊢
  rw [if_neg (by omega)] at h
  rw [if_neg (by omega)]
  have es : slice s ((2 : Nat) : Int) ((2 + (l.toNat + 1) / 2 : Nat) : Int) = slice p ((2 : Nat) : Int) ((2 + (l.toNat + 1) / 2 : Nat) : Int) := by
    rw [h1]; exact slice_append_left _ _ _ _ (by omega) (by omega)
  rw [es] at h
  exact h

theorem time_take (s : Bytes) (h : 7 ≤ s.length) : Timestamp.UnmarshalBinary (s.take 7) = Timestamp.UnmarshalBinary s := by
  have e : ∀ i : Nat, i < 7 → idx (s.take 7) (i : Int) = idx s (i : Int) := fun i hi =>
    idx_congr (by rw [List.getElem?_take, if_pos hi])
  have e0 := e 0 (by omega); have e1 := e 1 (by omega); have e2 := e 2 (by omega); have e3 := e 3 (by omega)
  have e4 := e 4 (by omega); have e5 := e 5 (by omega); have e6 := e 6 (by omega)
  simp only [Int.cast_ofNat_Int] at e0 e1 e2 e3 e4 e5 e6
  unfold Timestamp.UnmarshalBinary
  rw [if_neg (by rw [List.length_take]; omega), if_neg (by omega)]
  simp only [e0, e1, e2, e3, e4, e5, e6]

theorem time_len {s : Bytes} {x : GoTime} (h : Timestamp.UnmarshalBinary s = .ok x) : 7 ≤ s.length := by
  have := safe_timestamp s; rw [h] at this; exact this

theorem time_local {s s' : Bytes} {x : GoTime} (h : Timestamp.UnmarshalBinary s = .ok x)
    (hs : s'.take 7 = s.take 7) : Timestamp.UnmarshalBinary s' = .ok x := by
  have h7 := time_len h
  rw [← time_take s' (take_len hs h7), hs, time_take s h7]
  exact h

theorem checkZero_take (s : Bytes) : ∀ fuel i,
    ValidityPeriod.checkZero (s.take 7) i fuel = ValidityPeriod.checkZero s i fuel := by
  intro fuel
  induction fuel with
  | zero => intro i; rfl
  | succ fuel ih =>
    intro i
    unfold ValidityPeriod.checkZero
    split
    · rename_i hi
      rw [idx_congr (src := s) (src' := s.take 7) (i := i) (by rw [List.getElem?_take, if_pos hi]), ih]
    · rfl

theorem vp_local {v : ValidityPeriod} {s s' : Bytes} {f : UInt8} {r : ValidityPeriod × Nat} (h : v.UnmarshalBinary s f = .ok r)
    (hs : s'.take r.2 = s.take r.2) : r.2 ≤ s.length ∧ v.UnmarshalBinary s' f = .ok r := by
  unfold ValidityPeriod.UnmarshalBinary at h ⊢
  simp only at h ⊢
  split at h
  · rename_i hf
    rw [if_pos hf]
    obtain ⟨t, ht, h⟩ := bind_eq_ok.mp h
    cases h
    rw [time_local ht hs]
    exact ⟨time_len ht, rfl⟩
  rename_i hf
  rw [if_neg hf]
  split at h
  · rename_i hf
    rw [if_pos hf]
    obtain ⟨t, ht, h⟩ := bind_eq_ok.mp h
    have key : ∀ s : Bytes, 7 ≤ s.length → ∀ v, ValidityPeriod.unmarshalVPEnhanced v (s.take 7) = ValidityPeriod.unmarshalVPEnhanced v s := by
      intro s h7 v
      have e : ∀ i : Nat, i < 7 → idx (s.take 7) (i : Int) = idx s (i : Int) := fun i hi =>
        idx_congr (by rw [List.getElem?_take, if_pos hi])
      have e0 := e 0 (by omega); have e1 := e 1 (by omega); have e2 := e 2 (by omega); have e3 := e 3 (by omega)
      simp only [Int.cast_ofNat_Int] at e0 e1 e2 e3
      unfold ValidityPeriod.unmarshalVPEnhanced
      rw [if_neg (by rw [List.length_take]; omega), if_neg (by omega)]
      simp only [e0, e1, e2, e3, checkZero_take]
    have h7 : 7 ≤ s.length ∧ t.2 = 7 := by
      unfold ValidityPeriod.unmarshalVPEnhanced at ht
      split at ht
      · cases ht
      obtain ⟨_, _, ht⟩ := bind_eq_ok.mp ht
      obtain ⟨_, _, ht⟩ := bind_eq_ok.mp ht
      obtain ⟨_, _, ht⟩ := bind_eq_ok.mp ht
      cases ht
      exact ⟨by omega, rfl⟩
    obtain ⟨t1, t2⟩ := t
    cases h
    obtain ⟨h7, h7'⟩ := h7
    simp only at h7' hs
    subst h7'
    have : ValidityPeriod.unmarshalVPEnhanced { v with Format := VpfNotPresent } s' = .ok (t1, 7) := by
      rw [← key s' (take_len hs h7), hs, key s h7]; exact ht
    rw [this]
    exact ⟨h7, rfl⟩
  rename_i hf
  rw [if_neg hf]
  split at h
  · rename_i hf
    rw [if_pos hf]
    by_cases h1 : s.length < 1
    · rw [if_pos h1] at h; cases h
    rw [if_neg h1] at h
    obtain ⟨b, hb, h⟩ := bind_eq_ok.mp h
    cases h
    simp only at hs
    have hl := take_len hs (by omega)
    rw [if_neg (by omega)]
    have : idx s' 0 = idx s 0 := idx_congr (i := 0) (take_idx hs (by omega))
    rw [this, hb]
    exact ⟨by simp only; omega, rfl⟩
  · rename_i hf
    rw [if_neg hf]
    split at h
    · rename_i hf; rw [if_pos hf]; cases h; exact ⟨Nat.zero_le _, rfl⟩
    · cases h

theorem wrapD_err {α : Type} {f : String} {o : Nat} {m : M α} {e : Err} (h : wrapD f o m = .error (.err e)) :
    ∃ e', e = newDecodeError f o e' := by
  cases m with
  | ok a => cases h
  | error g => cases g with
    | err e' => cases h; exact ⟨e', rfl⟩
    | panic k => cases h


/-- Setting one field leaves the others. -/
syntax "only_field" : tactic
macro_rules
  | `(tactic| only_field) => `(tactic| (refine ⟨rfl, rfl, fun f hf => ?_⟩; cases f <;> first | exact absurd rfl hf | simp [Agree]))

theorem only_refl (k : Field) (t : TPDU) : Only k t t := ⟨rfl, rfl, fun f _ => agree_refl f _⟩

theorem byte_sound {k : Field} {e : Err} {set : UInt8 → TPDU → TPDU} {spoil : TPDU → TPDU} (h : ∀ b t, Only k t (set b t))
    (hs : ∀ t, Only k t (spoil t)) : Sound (byteStep k e set spoil) where
  only {t src pos t' pos'} hr := by
    simp only [byteStep] at hr
    split at hr
    · cases hr; exact h _ _
    · cases hr
  spoil := hs
  error {t src pos e'} hr := by
    simp only [byteStep] at hr
    split at hr
    · cases hr
    · cases hr; exact ⟨_, _, rfl⟩
  can t p := ⟨[0], set 0 t, by simp [byteStep]⟩

theorem byte_local {k : Field} {e : Err} {set : UInt8 → TPDU → TPDU} {spoil : TPDU → TPDU} : Local (byteStep k e set spoil) where
  loc {t src pos t' pos'} hr hp := by
    simp only [byteStep] at hr ⊢
    split at hr
    · rename_i b hb
      cases hr
      have := (List.getElem?_eq_some_iff.1 hb).1
      refine ⟨by omega, by omega, fun src' hs => ?_⟩
      rw [take_idx hs (by omega), hb]
    · cases hr

theorem addr_sound {k : Field} {set : Address → TPDU → TPDU} (h : ∀ b t, Only k t (set b t)) : Sound (addrStep k set) where
  only {t src pos t' pos'} hr := by
    simp only [addrStep] at hr
    split at hr
    · cases hr; exact h _ _
    · cases hr
  spoil t := only_refl _ _
  error {t src pos e'} hr := by
    simp only [addrStep] at hr
    split at hr
    · cases hr
    · rename_i hw; cases hr; obtain ⟨e', rfl⟩ := wrapD_err hw; exact ⟨_, _, rfl⟩
  can t p := by
    refine ⟨[0, 0], set ⟨0, []⟩ t, ?_⟩
    simp only [addrStep, List.drop_left]
    rw [show Address.UnmarshalBinary [0, 0] = .ok (⟨0, []⟩, 2) by decide +kernel]
    simp [wrapD]

theorem addr_local {k : Field} {set : Address → TPDU → TPDU} : Local (addrStep k set) where
  loc {t src pos t' pos'} hr hp := by
    simp only [addrStep] at hr ⊢
    split at hr
    · rename_i a n hw
      cases hr
      have hw := wrapD_eq_ok.1 hw
      have hl := (address_len _ _ hw).2
      rw [List.length_drop] at hl
      simp only at hl
      refine ⟨by omega, by omega, fun src' hs => ?_⟩
      rw [wrapD_eq_ok.2 (address_local hw (take_drop_congr hs))]
    · cases hr

theorem time_sound {k : Field} {set : GoTime → TPDU → TPDU} (h : ∀ b t, Only k t (set b t)) : Sound (timeStep k set) where
  only {t src pos t' pos'} hr := by
    simp only [timeStep] at hr
    split at hr
    · cases hr; exact h _ _
    · cases hr
  spoil t := only_refl _ _
  error {t src pos e'} hr := by
    simp only [timeStep] at hr
    split at hr
    · cases hr
    · rename_i hw; cases hr; obtain ⟨e', rfl⟩ := wrapD_err hw; exact ⟨_, _, rfl⟩
  can t p := by
    obtain ⟨x, hx⟩ : ∃ x, Timestamp.UnmarshalBinary [0, 0, 0, 0, 0, 0, 0] = .ok x := ⟨_, rfl⟩
    refine ⟨[0, 0, 0, 0, 0, 0, 0], set x t, ?_⟩
    simp only [timeStep, List.drop_left]
    rw [hx]
    simp [wrapD]

theorem time_local' {k : Field} {set : GoTime → TPDU → TPDU} : Local (timeStep k set) where
  loc {t src pos t' pos'} hr hp := by
    simp only [timeStep] at hr ⊢
    split at hr
    · rename_i a hw
      cases hr
      have hw := wrapD_eq_ok.1 hw
      have hl := time_len hw
      rw [List.length_drop] at hl
      refine ⟨by omega, by omega, fun src' hs => ?_⟩
      rw [wrapD_eq_ok.2 (time_local hw (take_drop_congr hs))]
    · cases hr

theorem vpf_cases : ∀ fo : UInt8, FirstOctet.VPF fo = VpfAbsolute ∨ FirstOctet.VPF fo = VpfEnhanced ∨ FirstOctet.VPF fo = VpfRelative ∨
    FirstOctet.VPF fo = VpfNotPresent := by
  apply forall_u8; decide +kernel

theorem vp_sound : Sound vpStep where
  only {t src pos t' pos'} hr := by
    simp only [vpStep] at hr
    split at hr
    · cases hr; only_field
    · cases hr
  spoil t := by simp only [vpStep]; only_field
  error {t src pos e'} hr := by
    simp only [vpStep] at hr
    split at hr
    · cases hr
    · rename_i hw; cases hr; obtain ⟨e', rfl⟩ := wrapD_err hw; exact ⟨_, _, rfl⟩
  can t p := by
    obtain ⟨x, v, hx⟩ : ∃ x v, t.VP.UnmarshalBinary x (FirstOctet.VPF t.FirstOctet) = .ok (v, x.length) := by
      rcases vpf_cases t.FirstOctet with h | h | h | h <;> rw [h]
      · exact ⟨[0, 0, 0, 0, 0, 0, 0], _, rfl⟩
      · exact ⟨[0, 0, 0, 0, 0, 0, 0], _, rfl⟩
      · exact ⟨[0], _, rfl⟩
      · exact ⟨[], _, rfl⟩
    refine ⟨x, { t with VP := v }, ?_⟩
    simp only [vpStep, List.drop_left]
    rw [hx]
    simp [wrapD]

theorem vp_local' : Local vpStep where
  loc {t src pos t' pos'} hr hp := by
    simp only [vpStep] at hr ⊢
    split at hr
    · rename_i a n hw
      cases hr
      have hw := wrapD_eq_ok.1 hw
      have hl := (vp_local hw rfl).1
      rw [List.length_drop] at hl
      simp only at hl
      refine ⟨by omega, by omega, fun src' hs => ?_⟩
      rw [wrapD_eq_ok.2 (vp_local hw (take_drop_congr hs)).2]
    · cases hr

theorem set_sound : Sound setStep where
  only {t src pos t' pos'} hr := by
    simp only [setStep] at hr
    cases hr; simp only [setStep]; only_field
  spoil t := only_refl _ _
  error {t src pos e'} hr := by cases hr
  can t p := ⟨[], _, by simp only [setStep, List.append_nil]; rfl⟩

theorem set_local : Local setStep where
  loc {t src pos t' pos'} hr hp := by
    cases hr
    exact ⟨Nat.le_refl _, hp, fun _ _ => rfl⟩

theorem ud_only {t t' : TPDU} {src : Bytes} (h : t.decodeUserData src = .ok t') : Only .ud t t' := by
  have : Post (t.decodeUserData src) (Only .ud t) := by
    have h1 : ∀ x y, Only .ud t { t with UDH := x, UD := y } := fun x y => by only_field
    have h2 : ∀ x, Only .ud t { t with UDH := x } := fun x => by only_field
    unfold TPDU.decodeUserData
    split
    · exact .fail
    refine Post.bind ?_; intro _
    repeat' (first | exact .fail | exact .ok (only_refl _ _) | exact .ok (h1 _ _) | exact .ok (h2 _) | split | (refine Post.bind ?_; intro _) | simp only)
  exact this t' h

theorem ud_sound : Sound udStep where
  only {t src pos t' pos'} hr := by
    simp only [udStep] at hr
    split at hr
    · rename_i hw; cases hr; exact ud_only (wrapD_eq_ok.1 hw)
    · cases hr
  spoil t := only_refl _ _
  error {t src pos e'} hr := by
    simp only [udStep] at hr
    split at hr
    · cases hr
    · rename_i hw; cases hr; obtain ⟨e', rfl⟩ := wrapD_err hw; exact ⟨_, _, rfl⟩
  can t p := by
    refine ⟨[0], t, ?_⟩
    simp only [udStep, List.drop_left]
    rw [decodeUserData_zero t [0] rfl]
    rfl

theorem opt_sound {c : UInt8 → Bool} {S : Step} (h : Sound S) : Sound (optStep c S) where
  only {t src pos t' pos'} hr := by
    simp only [optStep] at hr
    split at hr
    · exact h.only hr
    · cases hr; exact only_refl _ _
  spoil := h.spoil
  error {t src pos e'} hr := by
    simp only [optStep] at hr
    split at hr
    · exact h.error hr
    · cases hr
  can t p := by
    simp only [optStep]
    split
    · exact h.can t p
    · exact ⟨[], t, by simp⟩

theorem opt_local {c : UInt8 → Bool} {S : Step} (h : Local S) : Local (optStep c S) where
  loc {t src pos t' pos'} hr hp := by
    simp only [optStep] at hr ⊢
    split at hr
    · rename_i hc
      simpa only [if_pos hc] using h.loc hr hp
    · rename_i hc
      simp only [if_neg hc]; cases hr; exact ⟨Nat.le_refl _, hp, fun _ _ => rfl⟩

/-! The functions as steps. -/

/-- The outcome without the position. -/
def noPos (x : Except Fault Nat × TPDU) : Except Fault Unit × TPDU := (x.1.map fun _ => (), x.2)

def optSteps : List Step :=
  [optStep PI.PID (byteStep .pid .underflow fun b t => { t with PID := b }),
   optStep PI.DCS (byteStep .dcs .underflow fun b t => { t with DCS := b }),
   optStep PI.UDL udStep]

def deliverSteps : List Step :=
  [addrStep .oa fun a t => { t with OA := a },
   byteStep .pid .eof (fun b t => { t with PID := b }) (fun t => { t with PID := 0 }),
   byteStep .dcs .eof fun b t => { t with DCS := b },
   timeStep .scts fun a t => { t with SCTS := a },
   udStep]

def submitSteps : List Step :=
  [byteStep .mr .underflow fun b t => { t with MR := b },
   addrStep .da fun a t => { t with DA := a },
   byteStep .pid .underflow fun b t => { t with PID := b },
   byteStep .dcs .underflow fun b t => { t with DCS := b },
   vpStep,
   udStep]

def commandSteps : List Step :=
  [byteStep .mr .eof (fun b t => { t with MR := b }) (fun t => { t with MR := 0 }),
   byteStep .pid .eof (fun b t => { t with PID := b }) (fun t => { t with PID := 0 }),
   byteStep .ct .eof (fun b t => { t with CT := b }) (fun t => { t with CT := 0 }),
   byteStep .mn .eof (fun b t => { t with MN := b }) (fun t => { t with MN := 0 }),
   addrStep .da fun a t => { t with DA := a },
   setStep,
   udStep]

def deliverReportSteps : List Step :=
  [byteStep .fcs .underflow fun b t => { t with FCS := b },
   byteStep .pi .underflow fun b t => { t with PI := b }] ++ optSteps

def submitReportSteps : List Step :=
  [byteStep .fcs .underflow fun b t => { t with FCS := b },
   byteStep .pi .underflow fun b t => { t with PI := b },
   timeStep .scts fun a t => { t with SCTS := a }] ++ optSteps

def statusReportSteps : List Step :=
  [byteStep .mr .underflow fun b t => { t with MR := b },
   addrStep .ra fun a t => { t with RA := a },
   timeStep .scts fun a t => { t with SCTS := a },
   timeStep .dt fun a t => { t with DT := a },
   byteStep .st .underflow fun b t => { t with ST := b }]

def statusReportMore : List Step := byteStep .pi .underflow (fun b t => { t with PI := b }) :: optSteps

theorem bind_eval {α β : Type} (m : M α) (f : α → Into β) (t : TPDU) : (Into.eval m >>= f) t = match m with
    | .ok a => f a t
    | .error e => (.error e, t) := by cases m <;> rfl

theorem bind_assign {β : Type} (g : TPDU → TPDU) (f : Unit → Into β) (t : TPDU) : (Into.assign g >>= f) t = f () (g t) := rfl

theorem bind_this {β : Type} (f : TPDU → Into β) (t : TPDU) : (Into.this >>= f) t = f t t := rfl

theorem bind_wrap {α β : Type} (s : String) (o : Nat) (m : Into α) (f : α → Into β) (t : TPDU) :
    (Into.wrap s o m >>= f) t = match m t with
      | (.ok a, t) => f a t
      | (.error (.err e), t) => (.error (.err (newDecodeError s o e)), t)
      | (.error (.panic k), t) => (.error (.panic k), t) := by
  show (match Into.wrap s o m t with | (.ok a, t) => f a t | (.error e, t) => (.error e, t)) = _
  unfold Into.wrap
  rcases m t with ⟨_ | _, t'⟩
  · rename_i g; cases g <;> rfl
  · rfl

theorem pure_into {α : Type} (a : α) (t : TPDU) : (pure a : Into α) t = (.ok a, t) := rfl

theorem ud_step (src : Bytes) (pos i : Nat) (hi : i = pos) (t : TPDU) (b : Bytes) (hb : b = src.drop pos) :
    Into.wrap "ud" i (decodeUserDataInto b) t = noPos (exec [udStep] src pos t) := by
  subst hi hb
  unfold Into.wrap decodeUserDataInto
  simp only [exec, udStep]
  cases t.decodeUserData (src.drop i) with
  | ok t' => rfl
  | error f => cases f <;> rfl

theorem readAt_step (k : Field) (src : Bytes) (pos : Nat) (set : UInt8 → TPDU → TPDU) (t : TPDU) :
    (byteStep k .underflow set).run t src pos = (readAt k.name src pos).map fun b => (set b t, pos + 1) := by
  unfold readAt
  simp only [byteStep]
  split
  · rename_i b hb
    have := (List.getElem?_eq_some_iff.1 hb).1
    rw [if_neg (by omega)]
    unfold idx
    rw [if_pos (by omega), Int.toNat_natCast, hb]; rfl
  · rename_i hb
    rw [if_pos (by simpa using hb)]; rfl


theorem drop_slice (s : Bytes) (n : Nat) (h : n ≤ s.length) : slice s (n : Int) (s.length : Int) = .ok (s.drop n) := by
  rw [slice_ok s n s.length h (Nat.le_refl _), List.take_length]

/-- The steps, and then something else. -/
def execK : List Step → Bytes → Nat → TPDU → (Nat → TPDU → Except Fault Unit × TPDU) → Except Fault Unit × TPDU
  | [], _, pos, t, R => R pos t
  | S :: l, src, pos, t, R => match S.run t src pos with
    | .ok (t', pos') => execK l src pos' t' R
    | .error f => (.error f, S.spoil t)

theorem execK_eq (l : List Step) (src : Bytes) (R : Nat → TPDU → Except Fault Unit × TPDU) : ∀ (pos : Nat) (t : TPDU),
    execK l src pos t R = match exec l src pos t with
      | (.ok pos, t) => R pos t
      | (.error f, t) => (.error f, t) := by
  induction l with
  | nil => intro pos t; rfl
  | cons S l ih =>
    intro pos t
    rw [execK, exec]
    cases S.run t src pos with
    | error f => rfl
    | ok x => obtain ⟨t', pos'⟩ := x; exact ih pos' t'

theorem execK_end (l : List Step) (src : Bytes) (pos : Nat) (t : TPDU) :
    noPos (exec l src pos t) = execK l src pos t fun _ t => (.ok (), t) := by
  rw [execK_eq]
  obtain ⟨_ | _, _⟩ := exec l src pos t <;> rfl

/-- An octet at a position. -/
theorem at_byte {R : Nat → TPDU → Except Fault Unit × TPDU} (k : Field) (set : UInt8 → TPDU → TPDU) (src : Bytes) (pos : Nat) (g : Into Unit) (rest : List Step) (t : TPDU)
    (hg : ∀ t', pos + 1 ≤ src.length → g t' = execK rest src (pos + 1) t' R) :
    (Into.eval (readAt k.name src pos) >>= fun b => Into.assign (set b) >>= fun _ => g) t =
      execK (byteStep k .underflow set :: rest) src pos t R := by
  rw [bind_eval, execK, readAt_step]
  cases h : readAt k.name src pos with
  | error f => rfl
  | ok b =>
    have := (List.getElem?_eq_some_iff.1 (readAt_eq_ok h)).1
    exact hg _ (by omega)

/-- An octet from the buffer. -/
theorem at_buffer {R : Nat → TPDU → Except Fault Unit × TPDU} (k : Field) (set : UInt8 → TPDU → TPDU) (src : Bytes) (pos : Nat) (b : Bytes) (hb : b = src.drop pos)
    (hp : pos ≤ src.length) (g : Bytes → Into Unit) (rest : List Step) (t : TPDU)
    (hg : ∀ t', pos + 1 ≤ src.length → g (src.drop (pos + 1)) t' = execK rest src (pos + 1) t' R) :
    (Into.wrap k.name (src.length - b.length) (readByteInto set b) >>= g) t =
      execK (byteStep k .eof set (set 0) :: rest) src pos t R := by
  subst hb
  rw [bind_wrap, execK]
  simp only [byteStep]
  cases h : src[pos]? with
  | none =>
    have : src.length ≤ pos := by simpa using h
    rw [List.drop_eq_nil_of_le this]
    show (Except.error _, _) = (Except.error _, _)
    have : src.length - ([] : Bytes).length = pos := by simp; omega
    rw [this]
  | some b =>
    obtain ⟨hl, hb⟩ := List.getElem?_eq_some_iff.1 h
    rw [List.drop_eq_getElem_cons hl, hb]
    exact hg _ hl

/-- An address. -/
theorem at_addr {R : Nat → TPDU → Except Fault Unit × TPDU} (k : Field) (set : Address → TPDU → TPDU) (src : Bytes) (pos : Nat) (hp : pos ≤ src.length) (g : Address × Nat → Into Unit)
    (rest : List Step) (t : TPDU) (hg : ∀ a n, pos + n ≤ src.length → g (a, n) t = execK rest src (pos + n) (set a t) R) :
    (Into.eval (wrapD k.name pos (Address.UnmarshalBinary (src.drop pos))) >>= g) t =
      execK (addrStep k set :: rest) src pos t R := by
  rw [bind_eval, execK]
  simp only [addrStep]
  cases h : wrapD k.name pos (Address.UnmarshalBinary (src.drop pos)) with
  | error f => rfl
  | ok x =>
    have hl := (address_len _ _ (wrapD_eq_ok.1 h)).2
    rw [List.length_drop] at hl
    exact hg _ _ (by omega)

/-- A timestamp in the rest of the buffer. -/
theorem at_time {R : Nat → TPDU → Except Fault Unit × TPDU} (k : Field) (set : GoTime → TPDU → TPDU) (src : Bytes) (pos : Nat) (hp : pos ≤ src.length) (g : Into Unit) (rest : List Step) (t : TPDU)
    (hg : ∀ t', pos + 7 ≤ src.length → g t' = execK rest src (pos + 7) t' R) :
    (Into.eval (wrapD k.name pos (Timestamp.UnmarshalBinary (src.drop pos))) >>= fun x => Into.assign (set x) >>= fun _ => g) t =
      execK (timeStep k set :: rest) src pos t R := by
  rw [bind_eval, execK]
  simp only [timeStep]
  cases h : wrapD k.name pos (Timestamp.UnmarshalBinary (src.drop pos)) with
  | error f => rfl
  | ok x =>
    have hl := time_len (wrapD_eq_ok.1 h)
    rw [List.length_drop] at hl
    exact hg _ (by omega)

/-- A timestamp in seven octets, if there are seven. -/
theorem at_time7 {R : Nat → TPDU → Except Fault Unit × TPDU} (k : Field) (set : GoTime → TPDU → TPDU) (src : Bytes) (pos : Nat) (hp : pos ≤ src.length) (g : Into Unit) (rest : List Step) (t : TPDU)
    (hg : ∀ t', pos + 7 ≤ src.length → g t' = execK rest src (pos + 7) t' R) :
    (if src.length < pos + 7 then Into.eval (fail (newDecodeError k.name pos .underflow)) else
      Into.eval (slice src pos (pos + 7 : Nat)) >>= fun s =>
      Into.eval (wrapD k.name pos (Timestamp.UnmarshalBinary s)) >>= fun x => Into.assign (set x) >>= fun _ => g) t =
      execK (timeStep k set :: rest) src pos t R := by
  split
  · rename_i h
    rw [execK]
    simp only [timeStep]
    have : Timestamp.UnmarshalBinary (src.drop pos) = fail .underflow := by
      unfold Timestamp.UnmarshalBinary; rw [if_pos (by rw [List.length_drop]; omega)]
    rw [this]
    rfl
  · rename_i h
    rw [bind_eval, slice_ok _ _ _ (by omega) (by omega)]
    simp only
    rw [← List.take_drop, time_take _ (by rw [List.length_drop]; omega)]
    exact at_time k set src pos hp g rest t hg

/-- The user data end it. -/
theorem at_ud (src : Bytes) (pos : Nat) (hp : pos ≤ src.length) (t : TPDU) :
    (Into.eval (slice src pos src.length) >>= fun s => Into.wrap "ud" pos (decodeUserDataInto s)) t = noPos (exec [udStep] src pos t) := by
  rw [bind_eval, drop_slice _ _ hp]
  exact ud_step src pos pos rfl t _ rfl

theorem submit_exec (src : Bytes) (t : TPDU) : unmarshalSubmitInto src t = noPos (exec submitSteps src 0 t) := by
  unfold unmarshalSubmitInto submitSteps
  rw [execK_end]
  refine at_byte .mr _ src 0 _ _ t fun t h => ?_
  rw [bind_eval]
  have := drop_slice src 1 h
  rw [show slice src ((1 : Nat) : Int) (src.length : Int) = .ok (src.drop 1) from drop_slice src 1 h]
  refine at_addr .da _ src 1 h _ _ t fun a n h => ?_
  simp only [bind_assign]
  generalize ({ t with DA := a } : TPDU) = t
  refine at_byte .pid _ src (1 + n) _ _ t fun t h => ?_
  refine at_byte .dcs _ src (1 + n + 1) _ _ t fun t h => ?_
  rw [bind_eval, drop_slice _ _ h]
  simp only [bind_this, bind_wrap]
  rw [execK]
  simp only [vpStep, unmarshalVPInto]
  cases hv : t.VP.UnmarshalBinary (src.drop (1 + n + 1 + 1)) (FirstOctet.VPF t.FirstOctet) with
  | error f => cases f <;> rfl
  | ok x =>
    obtain ⟨v, m⟩ := x
    have hl := (vp_local hv rfl).1
    rw [List.length_drop] at hl
    exact (at_ud _ _ (by omega) _).trans (execK_end _ _ _ _)

theorem deliver_exec (src : Bytes) (t : TPDU) : unmarshalDeliverInto src t = noPos (exec deliverSteps src 0 t) := by
  unfold unmarshalDeliverInto deliverSteps
  rw [execK_end]
  refine at_addr .oa _ src 0 (Nat.zero_le _) _ _ t fun a n h => ?_
  simp only [bind_assign]
  generalize ({ t with OA := a } : TPDU) = t
  rw [Nat.zero_add] at h ⊢
  rw [bind_eval, drop_slice _ _ h]
  refine at_buffer .pid _ src n _ rfl h _ _ t fun t h => ?_
  rw [bind_eval, execK]
  have hl : src.length - (src.drop (n + 1)).length = n + 1 := by rw [List.length_drop]; omega
  rw [hl]
  simp only [byteStep]
  cases hb : src[n + 1]? with
  | none =>
    have : src.length ≤ n + 1 := by simpa using hb
    rw [List.drop_eq_nil_of_le this]
    rfl
  | some b =>
    obtain ⟨hl, hb⟩ := List.getElem?_eq_some_iff.1 hb
    rw [List.drop_eq_getElem_cons hl, hb]
    have hl' : src.length - (src.drop (n + 1 + 1)).length = n + 1 + 1 := by rw [List.length_drop]; omega
    show (Into.eval (wrapD "scts" (src.length - (src.drop (n + 1 + 1)).length) (Timestamp.UnmarshalBinary (src.drop (n + 1 + 1)))) >>= _) _ = _
    rw [hl']
    refine at_time .scts _ src (n + 1 + 1) hl _ _ _ fun t h => ?_
    rw [← execK_end]
    exact ud_step src (n + 1 + 1 + 7) _ (by rw [List.drop_drop, List.length_drop]; omega) t _ (by rw [List.drop_drop])

theorem command_exec (src : Bytes) (t : TPDU) : unmarshalCommandInto src t = noPos (exec commandSteps src 0 t) := by
  unfold unmarshalCommandInto commandSteps
  rw [execK_end]
  refine at_buffer .mr _ src 0 src rfl (Nat.zero_le _) _ _ t fun t h => ?_
  simp only [Nat.zero_add] at h ⊢
  refine at_buffer .pid _ src 1 _ rfl h _ _ t fun t h => ?_
  simp only [Nat.reduceAdd] at h ⊢
  refine at_buffer .ct _ src 2 _ rfl h _ _ t fun t h => ?_
  simp only [Nat.reduceAdd] at h ⊢
  refine at_buffer .mn _ src 3 _ rfl h _ _ t fun t h => ?_
  simp only [Nat.reduceAdd] at h ⊢
  have hl : src.length - (src.drop 4).length = 4 := by rw [List.length_drop]; omega
  rw [hl]
  refine at_addr .da _ src 4 h _ _ t fun a n h => ?_
  simp only [bind_assign]
  rw [List.drop_drop, execK]
  have hl : src.length - (src.drop (4 + n)).length = 4 + n := by rw [List.length_drop]; omega
  rw [hl]
  exact (ud_step src (4 + n) (4 + n) rfl { t with DA := a, DCS := DCS.Dcs8BitData } _ rfl).trans (execK_end _ _ _ _)

theorem bind_seq {α β : Type} (m : Into α) (g : α → Into β) (t : TPDU) : (m >>= g) t = match m t with
    | (.ok a, t) => g a t
    | (.error e, t) => (.error e, t) := rfl

theorem at_opt {R : Nat → TPDU → Except Fault Unit × TPDU} (k : Field) (c : UInt8 → Bool) (set : UInt8 → TPDU → TPDU) (src : Bytes) (pos : Nat) (hp : pos ≤ src.length) (g : Nat → Into Unit)
    (rest : List Step) (t : TPDU) (hset : ∀ b, (set b t).PI = t.PI)
    (hg : ∀ t' pos', t'.PI = t.PI → pos' ≤ src.length → g pos' t' = execK rest src pos' t' R) :
    ((if c t.PI then Into.eval (readAt k.name src pos) >>= fun b => Into.assign (set b) >>= fun _ => pure (pos + 1) else pure pos) >>= g) t =
      execK (optStep c (byteStep k .underflow set) :: rest) src pos t R := by
  rw [execK, bind_seq]
  simp only [optStep]
  by_cases hc : c t.PI = true
  · rw [if_pos hc, if_pos hc, bind_eval, readAt_step]
    cases h : readAt k.name src pos with
    | error f => rfl
    | ok b =>
      have := (List.getElem?_eq_some_iff.1 (readAt_eq_ok h)).1
      exact hg _ _ (hset b) (by omega)
  · rw [if_neg hc, if_neg hc]
    exact hg _ _ rfl hp

theorem opt_exec (src : Bytes) (pos : Nat) (hp : pos ≤ src.length) (t : TPDU) :
    unmarshalOptionalsInto src pos t = noPos (exec optSteps src pos t) := by
  unfold unmarshalOptionalsInto optSteps
  rw [bind_this, execK_end]
  refine at_opt .pid PI.PID _ src pos hp _ _ t (fun _ => rfl) fun t' pos' e hp' => ?_
  rw [← e]
  refine at_opt .dcs PI.DCS _ src pos' hp' _ _ t' (fun _ => rfl) fun t'' pos'' e' hp'' => ?_
  rw [← e', ← execK_end, exec]
  simp only [optStep]
  split
  · exact at_ud src pos'' hp'' t''
  · rfl

theorem deliverReport_exec (src : Bytes) (t : TPDU) : unmarshalDeliverReportInto src t = noPos (exec deliverReportSteps src 0 t) := by
  unfold unmarshalDeliverReportInto deliverReportSteps
  rw [execK_end]
  refine at_byte .fcs _ src 0 _ _ t fun t h => ?_
  refine at_byte .pi _ src 1 _ _ t fun t h => ?_
  rw [← execK_end]
  exact opt_exec src 2 h t

theorem submitReport_exec (src : Bytes) (t : TPDU) : unmarshalSubmitReportInto src t = noPos (exec submitReportSteps src 0 t) := by
  unfold unmarshalSubmitReportInto submitReportSteps
  rw [execK_end]
  refine at_byte .fcs _ src 0 _ _ t fun t h => ?_
  refine at_byte .pi _ src 1 _ _ t fun t h => ?_
  refine at_time7 .scts _ src 2 h _ _ t fun t h => ?_
  rw [← execK_end]
  exact opt_exec src 9 h t

/-- The first five fields, then the rest if there are more octets. -/
def statusExec (src : Bytes) (t : TPDU) : Except Fault Nat × TPDU := match exec statusReportSteps src 0 t with
  | (.ok pos, t') => if src.length > pos then exec statusReportMore src pos t' else (.ok pos, t')
  | (.error f, t') => (.error f, t')

theorem statusReport_exec (src : Bytes) (t : TPDU) : unmarshalStatusReportInto src t = noPos (statusExec src t) := by
  have e : noPos (statusExec src t) = execK statusReportSteps src 0 t fun pos t =>
      if src.length > pos then noPos (exec statusReportMore src pos t) else (.ok (), t) := by
    rw [execK_eq]
    unfold statusExec
    obtain ⟨_ | pos, t'⟩ := exec statusReportSteps src 0 t
    · rfl
    · simp only
      split <;> rfl
  rw [e]
  unfold unmarshalStatusReportInto statusReportSteps
  refine at_byte .mr _ src 0 _ _ t fun t h => ?_
  rw [bind_eval]
  rw [show slice src ((1 : Nat) : Int) (src.length : Int) = .ok (src.drop 1) from drop_slice src 1 h]
  refine at_addr .ra _ src 1 h _ _ t fun a n h => ?_
  simp only [bind_assign]
  generalize ({ t with RA := a } : TPDU) = t
  refine at_time7 .scts _ src (1 + n) h _ _ t fun t h => ?_
  refine at_time7 .dt _ src (1 + n + 7) h _ _ t fun t h => ?_
  refine at_byte .st _ src (1 + n + 7 + 7) _ _ t fun t h => ?_
  simp only [execK]
  by_cases hl : src.length > 1 + n + 7 + 7 + 1
  · rw [if_pos hl, if_pos hl, execK_end]
    have : Into.eval (idx src ((1 + n + 7 + 7 + 1 : Nat) : Int)) = Into.eval (readAt "pi" src (1 + n + 7 + 7 + 1)) := by
      unfold readAt; rw [if_neg (by omega)]
    rw [this]
    refine at_byte .pi _ src (1 + n + 7 + 7 + 1) _ _ t fun t h => ?_
    rw [← execK_end]
    exact opt_exec src _ h t
  · rw [if_neg hl, if_neg hl]
    rfl

/-! What a decoder has to do with its steps. -/

structure Follows (D : Bytes → TPDU → Except Fault Unit × TPDU) (l : List Step) : Prop where
  fails : ∀ {src t f t'}, D src t = (.error f, t') → exec l src 0 t = (.error f, t')
  works : ∀ {src t p r}, exec l src 0 t = (.ok p, r) → D src t = (.ok (), r)
  agrees : ∀ {src t r}, D src t = (.ok (), r) → ∀ l1 l2, l = l1 ++ l2 → ∀ p1 t1, exec l1 src 0 t = (.ok p1, t1) →
    ∀ f ∈ l1.map (·.k), Agree f t1 r

theorem exec_agrees {l1 l2 : List Step} (hs : ∀ S ∈ l1 ++ l2, Sound S) (hn : ((l1 ++ l2).map (·.k)).Nodup) {src : Bytes} {pos p p1 : Nat} {t t1 r : TPDU}
    (h : exec (l1 ++ l2) src pos t = (.ok p, r)) (h1 : exec l1 src pos t = (.ok p1, t1)) : ∀ f ∈ l1.map (·.k), Agree f t1 r := by
  intro f hf
  rw [exec_append, h1] at h
  have := exec_only (fun S hS => hs S (by simp [hS])) h
  refine agree_symm (this.rest f fun hf2 => ?_)
  rw [List.map_append, List.nodup_append] at hn
  exact hn.2.2 f hf f hf2 rfl

theorem noPos_error {x : Except Fault Nat × TPDU} {f : Fault} {t : TPDU} (h : noPos x = (.error f, t)) : x = (.error f, t) := by
  obtain ⟨_ | _, _⟩ := x <;> cases h <;> rfl

theorem noPos_ok {x : Except Fault Nat × TPDU} {t : TPDU} (h : noPos x = (.ok (), t)) : ∃ p, x = (.ok p, t) := by
  obtain ⟨_ | p, _⟩ := x <;> cases h
  exact ⟨p, rfl⟩

theorem follows_exec {D : Bytes → TPDU → Except Fault Unit × TPDU} {l : List Step} (hs : ∀ S ∈ l, Sound S) (hn : (l.map (·.k)).Nodup)
    (h : ∀ src t, D src t = noPos (exec l src 0 t)) : Follows D l where
  fails {src t f t'} h' := noPos_error (h src t ▸ h')
  works {src t p r} h' := by rw [h, h']; rfl
  agrees {src t r} h' l1 l2 hl p1 t1 h1 := by
    subst hl
    obtain ⟨p, hp⟩ := noPos_ok (h src t ▸ h')
    exact exec_agrees hs hn hp h1


/-! The lists of steps. -/

theorem opt_ok : (∀ S ∈ optSteps, Sound S) ∧ ∀ S ∈ optSteps.dropLast, Local S := by
  constructor
  · simp only [optSteps, List.mem_cons, List.not_mem_nil, or_false, forall_eq_or_imp, forall_eq]
    exact ⟨opt_sound (byte_sound (fun _ _ => by only_field) (fun _ => only_refl _ _)), opt_sound (byte_sound (fun _ _ => by only_field) (fun _ => only_refl _ _)),
      opt_sound ud_sound⟩
  · simp only [optSteps, List.dropLast, List.mem_cons, List.not_mem_nil, or_false, forall_eq_or_imp, forall_eq]
    exact ⟨opt_local byte_local, opt_local byte_local⟩

/-- What the lists have to satisfy. -/
structure Fine (st : UInt8) (l : List Step) : Prop where
  sound : ∀ S ∈ l, Sound S
  loc : ∀ S ∈ l.dropLast, Local S
  fields : l.map (·.k) = fieldsOf st
  fault : ∀ S ∈ l, ∀ t t1, Agree S.k t1 t → AtFault st S.k t (S.spoil t1)

syntax "fine_tac" : tactic
macro_rules
  | `(tactic| fine_tac) => `(tactic| (
      simp only [List.cons_append, List.nil_append, List.dropLast, List.mem_cons, List.not_mem_nil, or_false, forall_eq_or_imp, forall_eq]
      repeat' apply And.intro
      all_goals first
        | exact addr_sound fun _ _ => by only_field
        | exact time_sound fun _ _ => by only_field
        | exact vp_sound
        | exact set_sound
        | exact ud_sound
        | exact opt_sound ud_sound
        | exact byte_sound (fun _ _ => by only_field) (fun _ => by only_field)
        | exact byte_sound (fun _ _ => by only_field) (fun _ => only_refl _ _)
        | exact opt_sound (byte_sound (fun _ _ => by only_field) (fun _ => only_refl _ _))
        | exact addr_local
        | exact time_local'
        | exact vp_local'
        | exact set_local
        | exact byte_local
        | exact opt_local byte_local
        | (intro t t1 h; simp only [byteStep, addrStep, timeStep, vpStep, setStep, udStep, optStep, id] at h ⊢; simp (decide := true) [AtFault, Agree] at h ⊢ <;> simp [h])))

theorem deliver_fine : Fine SmsDeliver deliverSteps where
  sound := by unfold deliverSteps; fine_tac
  loc := by unfold deliverSteps; fine_tac
  fields := by decide
  fault := by unfold deliverSteps; fine_tac

theorem deliverReport_fine : Fine SmsDeliverReport deliverReportSteps where
  sound := by unfold deliverReportSteps optSteps; fine_tac
  loc := by unfold deliverReportSteps optSteps; fine_tac
  fields := by decide
  fault := by unfold deliverReportSteps optSteps; fine_tac

theorem submitReport_fine : Fine SmsSubmitReport submitReportSteps where
  sound := by unfold submitReportSteps optSteps; fine_tac
  loc := by unfold submitReportSteps optSteps; fine_tac
  fields := by decide
  fault := by unfold submitReportSteps optSteps; fine_tac

theorem submit_fine : Fine SmsSubmit submitSteps where
  sound := by unfold submitSteps; fine_tac
  loc := by unfold submitSteps; fine_tac
  fields := by decide
  fault := by unfold submitSteps; fine_tac

theorem command_fine : Fine SmsCommand commandSteps where
  sound := by unfold commandSteps; fine_tac
  loc := by unfold commandSteps; fine_tac
  fields := by decide
  fault := by unfold commandSteps; fine_tac

theorem status_fine : Fine SmsStatusReport (statusReportSteps ++ statusReportMore) where
  sound := by unfold statusReportSteps statusReportMore optSteps; fine_tac
  loc := by unfold statusReportSteps statusReportMore optSteps; fine_tac
  fields := by decide
  fault := by unfold statusReportSteps statusReportMore optSteps; fine_tac

theorem fields_nodup : ∀ st : UInt8, (fieldsOf st).Nodup := by
  intro st
  unfold fieldsOf
  repeat' split
  all_goals decide

theorem Fine.nodup {st : UInt8} {l : List Step} (h : Fine st l) : (l.map (·.k)).Nodup := by rw [h.fields]; exact fields_nodup st

/-- Past the first of the further fields there are more octets. -/
theorem more_longer {m : List Step} {src : Bytes} {pos p : Nat} {t r : TPDU}
    (h : exec (byteStep .pi .underflow (fun b t => { t with PI := b }) :: m) src pos t = (.ok p, r)) : src.length > pos := by
  rw [exec] at h
  simp only [byteStep] at h
  cases hs : src[pos]? with
  | none => rw [hs] at h; cases h
  | some b => exact (List.getElem?_eq_some_iff.1 hs).1

theorem status_follows : Follows (fun src t => unmarshalStatusReportInto src t) (statusReportSteps ++ statusReportMore) where
  fails {src t f t'} h := by
    simp only [statusReport_exec] at h
    have h := noPos_error h
    unfold statusExec at h
    rw [exec_append]
    rcases hx : exec statusReportSteps src 0 t with ⟨_ | pos, u⟩
    · rw [hx] at h; exact h
    · rw [hx] at h
      simp only at h ⊢
      split at h
      · exact h
      · cases h
  works {src t p r} h := by
    simp only [statusReport_exec]
    rw [exec_append] at h
    unfold statusExec
    rcases hx : exec statusReportSteps src 0 t with ⟨_ | pos, u⟩
    · rw [hx] at h; cases h
    · rw [hx] at h
      simp only at h ⊢
      rw [if_pos (more_longer h), h]
      rfl
  agrees {src t r} h l1 l2 hl p1 t1 h1 := by
    simp only [statusReport_exec] at h
    obtain ⟨p, h⟩ := noPos_ok h
    unfold statusExec at h
    rcases hx : exec statusReportSteps src 0 t with ⟨_ | pos, u⟩
    · rw [hx] at h; cases h
    rw [hx] at h
    simp only at h
    split at h
    · have : exec (l1 ++ l2) src 0 t = (.ok p, r) := by rw [← hl, exec_append, hx]; exact h
      exact exec_agrees (hl ▸ status_fine.sound) (hl ▸ status_fine.nodup) this h1
    · rename_i hlen
      cases h
      rcases List.append_eq_append_iff.1 hl with ⟨a, ha, hb⟩ | ⟨a, ha, hb⟩
      · -- more than the first five fields
        subst ha
        cases a with
        | nil =>
          rw [List.append_nil] at h1 ⊢
          rw [hx] at h1; cases h1
          exact fun f _ => agree_refl f _
        | cons S a =>
          rw [exec_append, hx] at h1
          simp only at h1
          unfold statusReportMore at hb
          injection hb with hb _
          subst hb
          exact absurd (more_longer h1) hlen
      · have hx' := hx
        rw [ha] at hx'
        refine exec_agrees (l2 := a) ?_ ?_ hx' h1
        · intro S hS; exact status_fine.sound S (by rw [ha]; simp only [List.mem_append] at hS ⊢; exact .inl hS)
        · have := status_fine.nodup
          rw [List.map_append, List.nodup_append] at this
          rw [← ha]; exact this.1

/-- What can be said of a failure. -/
structure Partly (D : Bytes → TPDU → Except Fault Unit × TPDU) (st : UInt8) (src : Bytes) (t t' : TPDU) (e : Err) (bef : List Field) (k : Field)
    (aft : List Field) (o : Nat) (e' : Err) (pre : Bytes) : Prop where
  fields : fieldsOf st = bef ++ k :: aft
  err : e = newDecodeError k.name o e'
  dir : t'.Direction = t.Direction
  fo : t'.FirstOctet = t.FirstOctet
  rest : ∀ f, f ∉ bef → f ≠ k → Agree f t' t
  fault : AtFault st k t t'
  start : pre <+: src
  can : ∃ tail r, D (pre ++ tail) t = (.ok (), r)
  same : ∀ tail r, D (pre ++ tail) t = (.ok (), r) → ∀ f ∈ bef, Agree f t' r

theorem partly {D : Bytes → TPDU → Except Fault Unit × TPDU} {st : UInt8} {l : List Step} (hF : Follows D l) (hl : Fine st l) {src : Bytes} {t t' : TPDU} {e : Err}
    (h : D src t = (.error (.err e), t')) : ∃ bef k aft o e' pre, Partly D st src t t' e bef k aft o e' pre := by
  obtain ⟨l1, S, l2, p1, t1, rfl, h1, h2, rfl⟩ := exec_fail (hF.fails h)
  have hS : Sound S := hl.sound S (by simp)
  have s1 : ∀ S ∈ l1, Sound S := fun S hS => hl.sound S (by simp [hS])
  have loc1 : ∀ S ∈ l1, Local S := fun S' hS' => hl.loc S' (by
    rw [List.dropLast_append_of_ne_nil (by simp)]; simp [hS'])
  obtain ⟨o, e', he⟩ := hS.error h2
  have o1 := exec_only s1 h1
  have o2 := hS.spoil t1
  have nd := hl.nodup
  rw [List.map_append, List.nodup_append] at nd
  have kn : S.k ∉ l1.map (·.k) := fun hk => nd.2.2 _ hk S.k (by simp) rfl
  obtain ⟨a1, a2, a3⟩ := exec_local loc1 h1 (Nat.zero_le _)
  have htk : ∀ tail : Bytes, (src.take p1 ++ tail).take p1 = src.take p1 := fun tail => by
    rw [List.take_append_of_le_length (by rw [List.length_take]; omega), List.take_take, Nat.min_self]
  refine ⟨l1.map (·.k), S.k, l2.map (·.k), o, e', src.take p1, ⟨?_, he, o2.dir.trans o1.dir, o2.fo.trans o1.fo, ?_, ?_, List.take_prefix _ _, ?_, ?_⟩⟩
  · rw [← hl.fields]; simp
  · intro f hf hk
    exact agree_trans (o2.rest f hk) (o1.rest f hf)
  · exact hl.fault S (by simp) t t1 (o1.rest _ kn)
  · obtain ⟨x, r, hx⟩ := exec_can (l := S :: l2) (fun S' hS' => hl.sound S' (by simp only [List.mem_append]; exact .inr hS')) (fun S' hS' => hl.loc S' (by
      rw [List.dropLast_append_of_ne_nil (by simp)]; simp only [List.mem_append]; exact .inr hS')) (src.take p1) t1
    refine ⟨x, r, hF.works (p := (src.take p1 ++ x).length) ?_⟩
    rw [exec_append, a3 _ (htk x)]
    rw [List.length_take, Nat.min_eq_left a2] at hx
    exact hx
  · intro tail r hr f hf
    have := hF.agrees hr l1 (S :: l2) rfl p1 t1 (a3 _ (htk tail)) f hf
    refine agree_trans (o2.rest f ?_) this
    rintro rfl; exact kn hf


/-! The functions that drop the receiver. -/

/-- The outcome as the functions of `Model/Tpdu.lean` give it. -/
def dropped (x : Except Fault Unit × TPDU) : M TPDU := match x with
  | (.ok _, t) => .ok t
  | (.error f, _) => .error f

theorem dropped_eval {α : Type} (m : M α) (f : α → Into Unit) (t : TPDU) : dropped ((Into.eval m >>= f) t) = m >>= fun a => dropped (f a t) := by
  cases m <;> rfl

theorem dropped_buffer (k : String) (o : Nat) (set : UInt8 → TPDU → TPDU) (b : Bytes) (f : Bytes → Into Unit) (t : TPDU) :
    dropped ((Into.wrap k o (readByteInto set b) >>= f) t) = wrapD k o (TPDU.readByte b) >>= fun x => dropped (f x.2 (set x.1 t)) := by
  cases b <;> rfl

theorem dropped_ud (o : Nat) (s : Bytes) (t : TPDU) : dropped (Into.wrap "ud" o (decodeUserDataInto s) t) = wrapD "ud" o (t.decodeUserData s) := by
  unfold Into.wrap decodeUserDataInto wrapD
  rcases t.decodeUserData s with f | t'
  · cases f <;> rfl
  · rfl

theorem dropped_vp (o : Nat) (s : Bytes) (v : UInt8) (f : Nat → Into Unit) (t : TPDU) :
    dropped ((Into.wrap "vp" o (unmarshalVPInto s v) >>= f) t) =
      wrapD "vp" o (t.VP.UnmarshalBinary s v) >>= fun x => dropped (f x.2 { t with VP := x.1 }) := by
  rw [bind_wrap]
  unfold unmarshalVPInto wrapD
  rcases t.VP.UnmarshalBinary s v with f | t'
  · cases f <;> rfl
  · rfl

theorem dropped_ite (c : Prop) [Decidable c] (x y : Into Unit) (t : TPDU) :
    dropped ((if c then x else y) t) = if c then dropped (x t) else dropped (y t) := by split <;> rfl

theorem dropped_fail (e : Err) (t : TPDU) : dropped (Into.eval (fail e) t) = fail e := rfl

theorem dropped_pure (t : TPDU) : dropped ((pure () : Into Unit) t) = .ok t := rfl

theorem dropped_opt (c : Bool) (m : M UInt8) (set : UInt8 → TPDU → TPDU) (ri : Nat) (f : Nat → Into Unit) (t : TPDU) :
    dropped (((if c = true then Into.eval m >>= fun b => Into.assign (set b) >>= fun _ => pure (ri + 1) else pure ri) >>= f) t) =
      (if c = true then m >>= fun b => pure (set b t, ri + 1) else .ok (t, ri)) >>= fun x => dropped (f x.2 x.1) := by
  cases c
  · rfl
  · cases m <;> rfl

theorem deliver_dropped (src : Bytes) (t : TPDU) : dropped (unmarshalDeliverInto src t) = t.unmarshalDeliver src := by
  unfold unmarshalDeliverInto TPDU.unmarshalDeliver
  simp only [dropped_eval, dropped_buffer, dropped_ud, bind_assign]

theorem command_dropped (src : Bytes) (t : TPDU) : dropped (unmarshalCommandInto src t) = t.unmarshalCommand src := by
  unfold unmarshalCommandInto TPDU.unmarshalCommand
  simp only [dropped_eval, dropped_buffer, dropped_ud, bind_assign]

theorem submit_dropped (src : Bytes) (t : TPDU) : dropped (unmarshalSubmitInto src t) = t.unmarshalSubmit src := by
  unfold unmarshalSubmitInto TPDU.unmarshalSubmit
  simp only [dropped_eval, dropped_vp, dropped_ud, bind_assign, bind_this]

theorem optionals_dropped (src : Bytes) (ri : Nat) (t : TPDU) : dropped (unmarshalOptionalsInto src ri t) = t.unmarshalOptionals src ri := by
  unfold unmarshalOptionalsInto TPDU.unmarshalOptionals
  rw [bind_this]
  simp only [dropped_opt, dropped_ite, dropped_eval, dropped_ud, dropped_pure]
  by_cases hp : PI.PID t.PI = true <;> by_cases hd : PI.DCS t.PI = true <;> by_cases hu : PI.UDL t.PI = true <;>
    simp only [hp, hd, hu, ↓reduceIte, ok_bind, bind_assoc, pure_bind, Bool.false_eq_true]

theorem deliverReport_dropped (src : Bytes) (t : TPDU) : dropped (unmarshalDeliverReportInto src t) = t.unmarshalDeliverReport src := by
  unfold unmarshalDeliverReportInto TPDU.unmarshalDeliverReport
  simp only [dropped_eval, optionals_dropped, bind_assign]

theorem submitReport_dropped (src : Bytes) (t : TPDU) : dropped (unmarshalSubmitReportInto src t) = t.unmarshalSubmitReport src := by
  unfold unmarshalSubmitReportInto TPDU.unmarshalSubmitReport
  simp only [dropped_eval, optionals_dropped, bind_assign, dropped_ite, dropped_fail]

theorem statusReport_dropped (src : Bytes) (t : TPDU) : dropped (unmarshalStatusReportInto src t) = t.unmarshalStatusReport src := by
  unfold unmarshalStatusReportInto TPDU.unmarshalStatusReport
  simp only [dropped_eval, optionals_dropped, bind_assign, dropped_ite, dropped_fail, dropped_pure]


theorem wrap_dropped (s : String) (o : Nat) (m : Into Unit) (t : TPDU) : dropped (Into.wrap s o m t) = wrapD s o (dropped (m t)) := by
  unfold Into.wrap wrapD dropped
  rcases m t with ⟨_ | _, t'⟩
  · rename_i g; cases g <;> rfl
  · rfl

theorem into_dropped (src : Bytes) (t : TPDU) : dropped (UnmarshalInto src t) = t.UnmarshalBinary src := by
  unfold UnmarshalInto TPDU.UnmarshalBinary
  simp only [dropped_ite, dropped_fail, dropped_eval, bind_assign, bind_this, wrap_dropped, deliver_dropped, deliverReport_dropped, submitReport_dropped,
    submit_dropped, statusReport_dropped, command_dropped]

end Verif.Proofs.Partly
