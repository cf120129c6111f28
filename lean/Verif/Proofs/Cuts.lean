import Verif.Proofs.Basic

/-! Cutting a list greedily at positions `b + bs`, each possibly moved back by `adj`. -/

namespace Verif.Proofs
open Verif.Model

/-- Pieces of `msg` from position `b`: the next boundary is `adj (b + bs)`. -/
def cutsLoop (adj : Nat → Nat) (bs : Nat) (msg : Bytes) : Nat → Nat → List Bytes
  | 0, _ => []
  | fuel + 1, b =>
    if b + bs < msg.length then
      ((msg.drop b).take (adj (b + bs) - b)) :: cutsLoop adj bs msg fuel (adj (b + bs))
    else [msg.drop b]

/-- The adjustment makes progress and does not exceed the block. -/
def AdjOk (adj : Nat → Nat) (bs : Nat) : Prop := ∀ b, b < adj (b + bs) ∧ adj (b + bs) ≤ b + bs

theorem cuts_flatten {adj bs} (msg : Bytes) (h : AdjOk adj bs) : ∀ fuel b, msg.length - b < fuel →
    (cutsLoop adj bs msg fuel b).flatten = msg.drop b := by
  intro fuel
  induction fuel with
  | zero => intro b hb; omega
  | succ n ih =>
    intro b hb
    obtain ⟨h1, h2⟩ := h b
    unfold cutsLoop
    split
    · rw [List.flatten_cons, ih _ (by omega)]
      have : msg.drop (adj (b + bs)) = (msg.drop b).drop (adj (b + bs) - b) := by
        rw [List.drop_drop]; congr 1; omega
      rw [this, List.take_append_drop]
    · simp

theorem cuts_ne {adj bs} (msg : Bytes) : ∀ fuel b, 0 < fuel → cutsLoop adj bs msg fuel b ≠ [] := by
  intro fuel b h
  cases fuel with
  | zero => omega
  | succ n => unfold cutsLoop; split <;> simp

theorem cuts_length {adj bs} (msg : Bytes) (h : AdjOk adj bs) : ∀ fuel b, msg.length - b < fuel → b < msg.length →
    ∀ c ∈ cutsLoop adj bs msg fuel b, 0 < c.length ∧ c.length ≤ bs := by
  intro fuel
  induction fuel with
  | zero => intro b hb; omega
  | succ n ih =>
    intro b hb hlt c hc
    obtain ⟨h1, h2⟩ := h b
    unfold cutsLoop at hc
    split at hc
    · rcases List.mem_cons.mp hc with rfl | hc
      · rw [List.length_take, List.length_drop]; omega
      · exact ih _ (by omega) (by omega) c hc
    · simp only [List.mem_singleton] at hc
      rw [hc, List.length_drop]; omega

/-- `Q` holds of every position the loop reaches. -/
def AdjInv (adj : Nat → Nat) (bs : Nat) (Q : Nat → Prop) : Prop := ∀ b, Q b → Q (adj (b + bs))

/-- Every boundary is an adjusted position. -/
theorem cuts_boundary {adj bs} {Q : Nat → Prop} (msg : Bytes) (h : AdjOk adj bs) (hq : AdjInv adj bs Q) :
    ∀ fuel b, msg.length - b < fuel → Q b →
    ∀ pre suf, cutsLoop adj bs msg fuel b = pre ++ suf → pre ≠ [] → suf ≠ [] →
      ∃ b', b ≤ b' ∧ Q b' ∧ b' + bs < msg.length ∧ b + pre.flatten.length = adj (b' + bs) := by
  intro fuel
  induction fuel with
  | zero => intro b hb; omega
  | succ n ih =>
    intro b hb hqb pre suf he hp hs
    obtain ⟨h1, h2⟩ := h b
    unfold cutsLoop at he
    split at he
    · rename_i hlt
      cases pre with
      | nil => exact absurd rfl hp
      | cons p ps =>
        rw [List.cons_append, List.cons.injEq] at he
        obtain ⟨e1, e2⟩ := he
        have hpl : p.length = adj (b + bs) - b := by
          rw [← e1, List.length_take, List.length_drop]; omega
        by_cases hps : ps = []
        · subst hps
          refine ⟨b, by omega, hqb, hlt, ?_⟩
          simp [hpl]; omega
        · obtain ⟨b', hx1, hx2, hx3, hx4⟩ := ih _ (by omega) (hq b hqb) ps suf e2 hps hs
          refine ⟨b', by omega, hx2, hx3, ?_⟩
          rw [List.flatten_cons, List.length_append, hpl]
          omega
    · cases pre with
      | nil => exact absurd rfl hp
      | cons p ps =>
        simp only [List.cons_append, List.cons.injEq] at he
        have := he.2.symm
        simp only [List.append_eq_nil_iff] at this
        exact absurd this.2 hs

/-- Greedy stays ahead: from position `b`, at or after an alternative's position `a`, no alternative cutting
into pieces of at most `bs` with boundaries that satisfy `Good` is shorter. -/
theorem cuts_min {adj bs} {Q : Nat → Prop} (msg : Bytes) (h : AdjOk adj bs) (hq : AdjInv adj bs Q) (Good : Nat → Prop)
    (hadj : ∀ b y, Q b → b + bs < msg.length → Good y → y ≤ b + bs → y ≤ adj (b + bs)) :
    ∀ fuel b, msg.length - b < fuel → Q b → ∀ a (ps : List Bytes), a ≤ b → a < msg.length → ps.flatten = msg.drop a →
      (∀ p ∈ ps, p.length ≤ bs) →
      (∀ pre suf, ps = pre ++ suf → pre ≠ [] → suf ≠ [] → Good (a + pre.flatten.length)) →
      (cutsLoop adj bs msg fuel b).length ≤ ps.length := by
  intro fuel
  induction fuel with
  | zero => intro b hb; omega
  | succ n ih =>
    intro b hb hqb a ps hab ha hfl hle hg
    obtain ⟨h1, h2⟩ := h b
    have hpos : 0 < (ps.flatten).length := by rw [hfl, List.length_drop]; omega
    cases ps with
    | nil => simp at hpos
    | cons p ps =>
      unfold cutsLoop
      split
      · rename_i hlt
        have hp := hle p (by simp)
        have htot : p.length + ps.flatten.length = msg.length - a := by
          have := congrArg List.length hfl
          simpa using this
        have hps : ps ≠ [] := by
          rintro rfl
          simp at htot; omega
        have hgood := hg [p] ps rfl (by simp) hps
        simp only [List.flatten_cons, List.flatten_nil, List.append_nil] at hgood
        have hle' := hadj b _ hqb hlt hgood (by omega)
        have hfl' : ps.flatten = msg.drop (a + p.length) := by
          have := congrArg (List.drop p.length) hfl
          rw [List.flatten_cons, List.drop_left, List.drop_drop] at this
          exact this
        have hlen : (cutsLoop adj bs msg n (adj (b + bs))).length ≤ ps.length := by
          by_cases hend : a + p.length < msg.length
          · refine ih _ (by omega) (hq b hqb) (a + p.length) ps hle' hend hfl' (fun q hq => hle q (by simp [hq])) ?_
            intro pre suf e hp' hs'
            have := hg (p :: pre) suf (by simp [e]) (by simp) hs'
            simpa [Nat.add_assoc] using this
          · omega
        simp only [List.length_cons]; omega
      · simp

end Verif.Proofs
