import Verif.Model.Segment
import Verif.Proofs.Cuts
import Verif.Proofs.Ucs2
import Verif.Spec.Segment

/-! Helper lemmas for segmentation. -/

namespace Verif.Proofs
open Verif.Model Verif.Spec

/-! ### The chunk loops as greedy cuts -/

/-- Boundary adjustment of `chunk7Bit`. -/
def adj7 (msg : Bytes) (x : Nat) : Nat :=
  if msg[x - 1]? = some esc ∧ msg[x - 2]? ≠ some esc then x - 1 else x

/-- The unit before position `x` is a high surrogate. -/
def highBefore (msg : Bytes) (x : Nat) : Prop :=
  ∃ h l, msg[x - 2]? = some h ∧ msg[x - 1]? = some l ∧ HighSurrogate (256 * h.toNat + l.toNat)

open Classical in
/-- Boundary adjustment of `chunkUCS2`. -/
noncomputable def adjU (msg : Bytes) (x : Nat) : Nat := if highBefore msg x then x - 2 else x

theorem adj7_ok (msg : Bytes) (bs : Nat) (h : 2 ≤ bs) : AdjOk (adj7 msg) bs := by
  intro b; unfold adj7; split <;> omega

theorem adj8_ok (bs : Nat) (h : 1 ≤ bs) : AdjOk id bs := by
  intro b; simp only [id]; omega

theorem adjU_ok (msg : Bytes) (bs : Nat) (h : 3 ≤ bs) : AdjOk (adjU msg) bs := by
  intro b; unfold adjU; split <;> omega

theorem idx_int {α : Type} (l : List α) (i : Int) (k : Nat) (h : i = k) (hk : k < l.length) : idx l i = .ok l[k] := by
  subst h; exact idx_getElem l k hk

theorem take_drop_comm (msg : Bytes) (a b : Nat) : (msg.take b).drop a = (msg.drop a).take (b - a) := by
  rw [List.drop_take]

theorem chunk7_cuts (msg : Bytes) (bs : Nat) (hbs : 2 ≤ bs) : ∀ fuel b, msg.length - b < fuel → b ≤ msg.length →
    chunk7Loop msg bs fuel (b : Nat) = .ok (cutsLoop (adj7 msg) bs msg fuel b) := by
  intro fuel
  induction fuel with
  | zero => intro b hb; omega
  | succ n ih =>
    intro b hb hle
    unfold chunk7Loop cutsLoop
    obtain ⟨p1, p2⟩ := adj7_ok msg bs hbs b
    by_cases hlt : b + bs < msg.length
    · simp only
      rw [if_pos (by omega), if_pos hlt, idx_int msg _ (b + bs - 1) (by omega) (by omega)]
      simp only [ok_bind]
      have hb' : (if msg[b + bs - 1] = esc then do
            let e2 ← idx msg ((b : Int) + bs - 2)
            return (if e2 ≠ esc then (b : Int) + bs - 1 else (b : Int) + bs)
          else .ok ((b : Int) + bs) : M Int) = .ok ((adj7 msg (b + bs) : Nat) : Int) := by
        unfold adj7
        rw [List.getElem?_eq_getElem (by omega : b + bs - 1 < msg.length),
          List.getElem?_eq_getElem (by omega : b + bs - 2 < msg.length),
          idx_int msg _ (b + bs - 2) (by omega) (by omega)]
        simp only [Option.some.injEq, ne_eq, ok_bind]
        by_cases h1 : msg[b + bs - 1] = esc
        · by_cases h2 : msg[b + bs - 2] = esc
          · simp [h1, h2, pure, Except.pure]
          · simp [h1, h2, pure, Except.pure]; omega
        · simp [h1]
      rw [hb']
      simp only [ok_bind]
      rw [slice_ok _ _ _ (by omega) (by omega)]
      simp only [ok_bind]
      rw [if_neg (by omega), ih _ (by omega) (by omega), take_drop_comm]
      rfl
    · simp only
      rw [if_neg (by omega), if_neg hlt, slice_ok _ _ _ (by omega) (by omega)]
      simp [pure, Except.pure]

theorem chunk8_cuts (msg : Bytes) (bs : Nat) (hbs : 1 ≤ bs) : ∀ fuel b, msg.length - b < fuel → b ≤ msg.length →
    chunk8Loop msg bs fuel (b : Nat) = .ok (cutsLoop id bs msg fuel b) := by
  intro fuel
  induction fuel with
  | zero => intro b hb; omega
  | succ n ih =>
    intro b hb hle
    unfold chunk8Loop cutsLoop
    by_cases hlt : b + bs < msg.length
    · simp only
      have e : (b : Int) + bs = ((b + bs : Nat) : Int) := by omega
      rw [if_pos (by omega), if_pos hlt, e, slice_ok _ _ _ (by omega) (by omega)]
      simp only [ok_bind]
      rw [if_neg (by omega), ih _ (by omega) (by omega), take_drop_comm]
      rfl
    · simp only
      rw [if_neg (by omega), if_neg hlt, slice_ok _ _ _ (by omega) (by omega)]
      simp [pure, Except.pure]

theorem drop_two (msg : Bytes) (k : Nat) (h : k + 2 ≤ msg.length) :
    (msg.drop k).take 2 = [msg[k], msg[k + 1]] := by
  rw [List.drop_eq_getElem_cons (by omega), List.drop_eq_getElem_cons (by omega)]
  rfl

theorem unit_at (msg : Bytes) (bs : Nat) (b : Nat) (hbs : 2 ≤ bs) (hlt : b + bs < msg.length) :
    (slice msg ((b : Int) + bs - 2) ((b : Int) + bs) >>= uint16) =
      .ok (Ucs2.be16 msg[b + bs - 2] msg[b + bs - 1]) := by
  have e1 : (b : Int) + bs - 2 = ((b + bs - 2 : Nat) : Int) := by omega
  have e2 : (b : Int) + bs = ((b + bs : Nat) : Int) := by omega
  rw [e1, e2, slice_ok _ _ _ (by omega) (by omega), take_drop_comm]
  have : b + bs - (b + bs - 2) = 2 := by omega
  rw [this, drop_two _ _ (by omega)]
  simp only [ok_bind, uint16]
  congr 2
  congr 1
  omega

theorem highBefore_iff (msg : Bytes) (x : Nat) (h1 : 2 ≤ x) (h2 : x ≤ msg.length) :
    highBefore msg x ↔ (0xd800 ≤ Ucs2.be16 msg[x - 2] msg[x - 1] ∧ Ucs2.be16 msg[x - 2] msg[x - 1] < 0xdc00) := by
  unfold highBefore HighSurrogate
  rw [List.getElem?_eq_getElem (by omega : x - 2 < msg.length),
    List.getElem?_eq_getElem (by omega : x - 1 < msg.length)]
  simp only [Option.some.injEq, be16_eq]
  constructor
  · rintro ⟨_, _, rfl, rfl, h⟩; exact h
  · intro h; exact ⟨_, _, rfl, rfl, h⟩

theorem chunkU_cuts (msg : Bytes) (bs : Nat) (hbs : 3 ≤ bs) : ∀ fuel b, msg.length - b < fuel → b ≤ msg.length →
    chunkUCS2Loop msg bs fuel (b : Nat) = .ok (cutsLoop (adjU msg) bs msg fuel b) := by
  intro fuel
  induction fuel with
  | zero => intro b hb; omega
  | succ n ih =>
    intro b hb hle
    unfold chunkUCS2Loop cutsLoop
    obtain ⟨p1, p2⟩ := adjU_ok msg bs hbs b
    by_cases hlt : b + bs < msg.length
    · simp only
      rw [if_pos (by omega), if_pos hlt]
      have hu := unit_at msg bs b (by omega) hlt
      rw [bind_eq_ok] at hu
      obtain ⟨s, hs1, hs2⟩ := hu
      rw [hs1]
      simp only [ok_bind]
      rw [hs2]
      simp only [ok_bind]
      have hb' : (if 0xd800 ≤ Ucs2.be16 msg[b + bs - 2] msg[b + bs - 1] ∧
            Ucs2.be16 msg[b + bs - 2] msg[b + bs - 1] < 0xdc00 then (b : Int) + bs - 2 else (b : Int) + bs)
          = ((adjU msg (b + bs) : Nat) : Int) := by
        unfold adjU
        by_cases h : highBefore msg (b + bs)
        · rw [if_pos h, if_pos ((highBefore_iff msg _ (by omega) (by omega)).mp h)]; omega
        · rw [if_neg h, if_neg (fun h' => h ((highBefore_iff msg _ (by omega) (by omega)).mpr h'))]; omega
      rw [hb', slice_ok _ _ _ (by omega) (by omega)]
      simp only [ok_bind]
      rw [if_neg (by omega), ih _ (by omega) (by omega), take_drop_comm]
      rfl
    · simp only
      rw [if_neg (by omega), if_neg hlt, slice_ok _ _ _ (by omega) (by omega)]
      simp [pure, Except.pure]

theorem checkCount_ok (msg : Bytes) (bs : Nat) (h : 1 ≤ bs) : checkCount msg bs = .ok () := by
  unfold checkCount
  have : 0 ≤ (msg.length : Int).tdiv bs := Int.tdiv_nonneg (by omega) (by omega)
  rw [if_neg (by omega), if_neg (by omega)]

/-- The adjustment used for an alphabet. -/
noncomputable def adjOf (msg : Bytes) : Alphabet → Nat → Nat
  | .ucs2 => adjU msg
  | .a8Bit => id
  | _ => adj7 msg

/-- The block size, rounded down to whole units for UCS-2. -/
def roundBlock : Alphabet → Nat → Nat
  | .ucs2, n => n - n % 2
  | _, n => n

theorem adjOf_ok (msg : Bytes) (a : Alphabet) (bs : Nat) (h : minBlock a ≤ bs) :
    AdjOk (adjOf msg a) (roundBlock a bs) := by
  cases a <;> simp only [adjOf, minBlock, roundBlock] at *
  · exact adj7_ok _ _ h
  · exact adj8_ok _ h
  · exact adjU_ok _ _ (by omega)
  · exact adj7_ok _ _ h

theorem chunk_cuts (msg : Bytes) (hne : msg ≠ []) (a : Alphabet) (bs : Nat) (h : minBlock a ≤ bs) :
    chunk msg a bs = .ok (cutsLoop (adjOf msg a) (roundBlock a bs) msg (msg.length + 1) 0) := by
  have hl : msg.length ≠ 0 := by simpa using hne
  cases a <;> simp only [adjOf, minBlock, roundBlock, chunk] at *
  · unfold chunk7Bit
    rw [if_neg hl, checkCount_ok _ _ (by omega)]
    simp only [ok_bind]
    exact chunk7_cuts msg bs h _ 0 (by omega) (by omega)
  · unfold chunk8Bit
    rw [if_neg hl, checkCount_ok _ _ (by omega)]
    simp only [ok_bind]
    exact chunk8_cuts msg bs h _ 0 (by omega) (by omega)
  · unfold chunkUCS2
    have e : (bs : Int) - (bs : Int) % 2 = ((bs - bs % 2 : Nat) : Int) := by omega
    rw [if_neg hl]
    simp only [e]
    rw [checkCount_ok _ _ (by omega)]
    simp only [ok_bind]
    exact chunkU_cuts msg _ (by omega) _ 0 (by omega) (by omega)
  · unfold chunk7Bit
    rw [if_neg hl, checkCount_ok _ _ (by omega)]
    simp only [ok_bind]
    exact chunk7_cuts msg bs h _ 0 (by omega) (by omega)

/-! ### The segment loop -/

theorem segLoop_length (t : TPDU) (ief) (r : Int) (n : Nat) (cs : List Bytes) : ∀ i mr,
    (segLoop t ief r n cs i mr).1.length = cs.length := by
  induction cs with
  | nil => intro i mr; rfl
  | cons c cs ih => intro i mr; simp [segLoop, ih]

/-- The `k`-th value taken from a counter. -/
def nthMR (t : TPDU) (mr : Option Counter) (k : Nat) : UInt8 :=
  match mr with
  | none => t.MR
  | some c => byteOf (c.vals (c.pos + k))

theorem segLoop_get (t : TPDU) (ief) (r : Int) (n : Nat) (cs : List Bytes) : ∀ i mr k c, cs[k]? = some c →
    (segLoop t ief r n cs i mr).1[k]? = some { t with
      FirstOctet := t.FirstOctet ||| FirstOctet.FoUDHI
      PI := t.PI ||| PI.PiUDL
      MR := nthMR t mr k
      UDH := t.UDH ++ [ief r n (i + k + 1)]
      UD := c } := by
  induction cs with
  | nil => intro i mr k c h; simp at h
  | cons c0 cs ih =>
    intro i mr k c h
    cases k with
    | zero =>
      simp only [List.getElem?_cons_zero, Option.some.injEq] at h
      subst h
      cases mr <;> simp [segLoop, setMR, nthMR, TPDU.SetUDH, Counter.count]
    | succ k =>
      simp only [List.getElem?_cons_succ] at h
      simp only [segLoop, List.getElem?_cons_succ]
      rw [ih _ _ _ _ h]
      have e : (((i + 1 : Nat) : Int) + k + 1) = ((i : Int) + ((k + 1 : Nat) : Int) + 1) := by omega
      have e2 : nthMR t (setMR t mr).2 k = nthMR t mr (k + 1) := by
        cases mr with
        | none => rfl
        | some c => simp [setMR, nthMR, Counter.count]; congr 2; omega
      rw [e, e2]

/-! ### Boundaries -/

theorem take_succ_last (msg : Bytes) (x : Nat) (e : UInt8) (h : msg[x]? = some e) :
    msg.take (x + 1) = msg.take x ++ [e] := by
  rw [List.take_add_one, h]; rfl

theorem pending_last_ne (p : Bytes) (e : UInt8) (h : e ≠ 0x1b) : ¬ EscapePending (p ++ [e]) := by
  unfold EscapePending
  rw [List.reverse_append]
  simp [h]

theorem pending_last_eq (p : Bytes) : EscapePending (p ++ [0x1b]) ↔ ¬ EscapePending p := by
  unfold EscapePending
  rw [List.reverse_append]
  simp only [List.reverse_cons, List.reverse_nil, List.nil_append, List.cons_append,
    List.takeWhile_cons, beq_self_eq_true, if_true, List.length_cons]
  omega

theorem not_pending_nil : ¬ EscapePending [] := by unfold EscapePending; decide

theorem not_pending_take (msg : Bytes) (x : Nat) (hx : x ≤ msg.length) (h : x = 0 ∨ msg[x - 1]? ≠ some 0x1b) :
    ¬ EscapePending (msg.take x) := by
  cases x with
  | zero => simpa using not_pending_nil
  | succ x =>
    have hg : msg[x]? = some msg[x] := List.getElem?_eq_getElem (by omega)
    rw [take_succ_last msg x _ hg]
    apply pending_last_ne
    rcases h with h | h
    · omega
    · intro he
      apply h
      simp only [Nat.add_sub_cancel]
      rw [hg, he]

/-- The adjusted position is after a pending escape only if that is the third of three. -/
theorem adj7_pending (msg : Bytes) (x : Nat) (hx : x ≤ msg.length) (h2 : 2 ≤ x)
    (hp : EscapePending (msg.take (adj7 msg x))) :
    ∃ z, msg[z]? = some 0x1b ∧ msg[z + 1]? = some 0x1b ∧ msg[z + 2]? = some 0x1b ∧
      msg.take (adj7 msg x) = msg.take z ++ [0x1b, 0x1b, 0x1b] := by
  revert hp
  obtain ⟨y, rfl⟩ : ∃ y, x = y + 2 := ⟨x - 2, by omega⟩
  unfold adj7
  have e1 : y + 2 - 1 = y + 1 := by omega
  have e2 : y + 2 - 2 = y := by omega
  rw [e1, e2]
  split
  · rename_i h
    exact fun hp => absurd hp (not_pending_take msg (y + 1) (by omega) (.inr h.2))
  · rename_i h
    by_cases h1 : msg[y + 1]? = some esc
    · have h0 : msg[y]? = some 0x1b := by
        by_cases h0 : msg[y]? = some esc
        · exact h0
        · exact absurd ⟨h1, h0⟩ h
      rw [take_succ_last msg (y + 1) 0x1b h1, take_succ_last msg y 0x1b h0, pending_last_eq, pending_last_eq]
      simp only [Classical.not_not]
      intro hp
      cases y with
      | zero => exact absurd hp (not_pending_take msg 0 (by omega) (.inl rfl))
      | succ z =>
        by_cases hz : msg[z]? = some 0x1b
        · exact ⟨z, hz, h0, h1, by rw [take_succ_last msg z 0x1b hz]; simp⟩
        · exact absurd hp (not_pending_take msg (z + 1) (by omega) (.inr hz))
    · exact fun hp => absurd hp (not_pending_take msg (y + 2) (by omega) (.inr h1))

/-- The adjusted position is not after a pending escape. -/
theorem adj7_not_pending (msg : Bytes) (hn : NoTripleEsc msg) (x : Nat) (hx : x ≤ msg.length) (h2 : 2 ≤ x) :
    ¬ EscapePending (msg.take (adj7 msg x)) := by
  intro hp
  obtain ⟨z, h⟩ := adj7_pending msg x hx h2 hp
  exact hn z ⟨h.1, h.2.1, h.2.2.1⟩

/-- `adj7` moves back only past an escape that is pending. -/
theorem adj7_max (msg : Bytes) (x y : Nat) (hx : x ≤ msg.length) (h2 : 2 ≤ x) (hy : ¬ EscapePending (msg.take y))
    (hle : y ≤ x) : y ≤ adj7 msg x := by
  unfold adj7
  split
  · rename_i h
    by_cases e : y = x
    · exfalso
      apply hy
      obtain ⟨z, rfl⟩ : ∃ z, x = z + 2 := ⟨x - 2, by omega⟩
      have e1 : z + 2 - 1 = z + 1 := by omega
      have e2 : z + 2 - 2 = z := by omega
      rw [e1, e2] at h
      rw [e, take_succ_last msg (z + 1) 0x1b h.1, pending_last_eq]
      exact not_pending_take msg (z + 1) (by omega) (.inr h.2)
    · omega
  · exact hle

theorem units_getElem? (msg : Bytes) : ∀ i, (units msg)[i]? =
    (match msg[2 * i]?, msg[2 * i + 1]? with
      | some h, some l => some (256 * h.toNat + l.toNat)
      | _, _ => none) := by
  fun_induction units msg with
  | case1 h l t ih =>
    intro i
    cases i with
    | zero => rfl
    | succ i =>
      have e1 : 2 * (i + 1) = 2 * i + 1 + 1 := by omega
      rw [e1]
      simp only [List.getElem?_cons_succ]
      exact ih i
  | case2 t ht =>
    intro i
    cases t with
    | nil => simp
    | cons a t =>
      cases t with
      | nil => cases i <;> simp
      | cons b t => exact absurd rfl (ht a b t)

theorem units_length (msg : Bytes) : (units msg).length = msg.length / 2 := by
  fun_induction units msg with
  | case1 h l t ih => simp [ih]; omega
  | case2 t ht =>
    cases t with
    | nil => rfl
    | cons a t =>
      cases t with
      | nil => simp
      | cons b t => exact absurd rfl (ht a b t)

/-- The last unit of an even prefix. -/
theorem units_take_last (msg : Bytes) (x : Nat) (hx : x ≤ msg.length) (he : x % 2 = 0) (h2 : 2 ≤ x) (u : Nat) :
    (units (msg.take x)).getLast? = some u ↔
      ∃ h l, msg[x - 2]? = some h ∧ msg[x - 1]? = some l ∧ u = 256 * h.toNat + l.toNat := by
  rw [List.getLast?_eq_getElem?, units_length, List.length_take, units_getElem?]
  have e1 : 2 * (min x msg.length / 2 - 1) = x - 2 := by omega
  have e2 : 2 * (min x msg.length / 2 - 1) + 1 = x - 1 := by omega
  rw [e2, e1, List.getElem?_take_of_lt (by omega), List.getElem?_take_of_lt (by omega)]
  have h1 : msg[x - 2]? = some msg[x - 2] := List.getElem?_eq_getElem (by omega)
  have h2 : msg[x - 1]? = some msg[x - 1] := List.getElem?_eq_getElem (by omega)
  rw [h1, h2]
  simp only [Option.some.injEq]
  constructor
  · intro h; exact ⟨_, _, rfl, rfl, h.symm⟩
  · rintro ⟨_, _, rfl, rfl, h⟩; exact h.symm

/-- The first unit of a suffix. -/
theorem units_drop_head (msg : Bytes) (x : Nat) (u : Nat) :
    (units (msg.drop x)).head? = some u ↔
      ∃ h l, msg[x]? = some h ∧ msg[x + 1]? = some l ∧ u = 256 * h.toNat + l.toNat := by
  rw [List.head?_eq_getElem?, units_getElem?, List.getElem?_drop, List.getElem?_drop]
  simp only [Nat.mul_zero, Nat.add_zero, Nat.zero_add]
  cases h1 : msg[x]? <;> cases h2 : msg[x + 1]? <;> simp
  constructor <;> exact fun h => h.symm

theorem adjU_even (msg : Bytes) (bs : Nat) (h : bs % 2 = 0) : AdjInv (adjU msg) bs (fun b => b % 2 = 0) := by
  intro b hb
  show adjU msg (b + bs) % 2 = 0
  have : b % 2 = 0 := hb
  unfold adjU; split <;> omega

/-- The adjusted position does not split a character. -/
theorem adjU_not_split (msg : Bytes) (x : Nat) (hx : x ≤ msg.length) (he : x % 2 = 0) (h4 : 4 ≤ x) :
    ¬ SplitsChar .ucs2 (msg.take (adjU msg x)) (msg.drop (adjU msg x)) := by
  unfold adjU
  rintro (h | ⟨h, l, h1, h2, hh, hl⟩)
  · rw [List.length_take] at h
    split at h <;> omega
  · split at h1
    · rename_i hb
      rw [if_pos hb, units_drop_head] at h2
      obtain ⟨a, b, ha, hb', hu⟩ := hb
      obtain ⟨a', b', ha', hb'', hu'⟩ := h2
      have e : x - 2 + 1 = x - 1 := by omega
      rw [e, hb'] at hb''
      rw [ha] at ha'
      cases ha'; cases hb''
      unfold HighSurrogate at hu; unfold LowSurrogate at hl
      omega
    · rename_i hb
      rw [units_take_last _ _ hx he (by omega)] at h1
      obtain ⟨a, b, ha, hb', hu⟩ := h1
      exact hb ⟨a, b, ha, hb', hu ▸ hh⟩

/-- `adjU` moves back only between the units of a pair. -/
theorem adjU_max (msg : Bytes) (hp : Paired (units msg)) (x y : Nat) (hx : x ≤ msg.length) (he : x % 2 = 0) (h2 : 2 ≤ x)
    (hy : ¬ SplitsChar .ucs2 (msg.take y) (msg.drop y)) (hle : y ≤ x) : y ≤ adjU msg x := by
  unfold adjU
  split
  · rename_i hb
    have hye : y % 2 = 0 := by
      have : ¬ (msg.take y).length % 2 = 1 := fun h => hy (.inl h)
      rw [List.length_take] at this
      omega
    by_cases e : y = x
    · exfalso
      apply hy
      subst e
      right
      obtain ⟨a, b, ha, hb', hu⟩ := hb
      have hui : (units msg)[y / 2 - 1]? = some (256 * a.toNat + b.toNat) := by
        rw [units_getElem?]
        have e1 : 2 * (y / 2 - 1) = y - 2 := by omega
        have e2 : 2 * (y / 2 - 1) + 1 = y - 1 := by omega
        rw [e2, e1, ha, hb']
      obtain ⟨l, hl1, hl2⟩ := hp _ _ hui hu
      refine ⟨_, l, (units_take_last _ _ hx he h2 _).mpr ⟨a, b, ha, hb', rfl⟩, ?_, hu, hl2⟩
      rw [units_drop_head]
      rw [units_getElem?] at hl1
      have e1 : 2 * (y / 2 - 1 + 1) = y := by omega
      rw [e1] at hl1
      split at hl1
      · rename_i h l' h1 h2
        exact ⟨h, l', h1, h2, by simpa using hl1.symm⟩
      · cases hl1
    · omega
  · exact hle

end Verif.Proofs
