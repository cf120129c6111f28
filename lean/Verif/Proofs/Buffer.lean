import Verif.Spec.Buffer
import Verif.Proofs.Alias

namespace Verif.Proofs.Buffer
open Verif.Model Verif.Model.Alias Verif.Model.Buffer Verif.Model.Buffer.Heap Verif.Spec
open Verif.Proofs.Alias

/-- The arrays of `m` are still there, and unchanged. -/
def Keeps (m m' : Mem UInt8) : Prop := m.next ≤ m'.next ∧ ∀ a p, a < m.next → m'.get a p = m.get a p

theorem Keeps.refl (m : Mem UInt8) : Keeps m m := ⟨Nat.le_refl _, fun _ _ _ => rfl⟩

theorem Keeps.trans {m m' m'' : Mem UInt8} (h : Keeps m m') (h' : Keeps m' m'') : Keeps m m'' :=
  ⟨Nat.le_trans h.1 h'.1, fun a p ha => (h'.2 a p (Nat.lt_of_lt_of_le ha h.1)).trans (h.2 a p ha)⟩

/-- The code `h` does in memory what `v` says, changes no array that exists, and leaves what `R` says. -/
def Does {α β : Type} (h : Heap α) (v : M β) (R : Mem UInt8 → α → β → Prop) (m : Mem UInt8) : Prop :=
  Keeps m (h m).2 ∧
    match (h m).1, v with
    | .ok a, .ok b => R (h m).2 a b
    | .error e, .error e' => e = e'
    | _, _ => False

theorem does_bind {α β γ δ : Type} {h : Heap α} {v : M β} {R : Mem UInt8 → α → β → Prop} {f : α → Heap γ} {g : β → M δ}
    {S : Mem UInt8 → γ → δ → Prop} {m : Mem UInt8} (h1 : Does h v R m)
    (h2 : ∀ m' a b, Keeps m m' → R m' a b → v = .ok b → Does (f a) (g b) S m') : Does (h >>= f) (v >>= g) S m := by
  unfold Does at h1
  show Does (Heap.seq h f) (v >>= g) S m
  unfold Does Heap.seq
  rcases hh : h m with ⟨r, m'⟩
  rw [hh] at h1
  obtain ⟨hk, h1⟩ := h1
  cases r with
  | ok a =>
    cases v with
    | ok b =>
      have := h2 m' a b hk h1 rfl
      exact ⟨hk.trans this.1, this.2⟩
    | error e => exact h1.elim
  | error e =>
    cases v with
    | ok b => exact h1.elim
    | error e' => exact ⟨hk, h1⟩

theorem does_eval {α γ δ : Type} {v : M α} {f : α → Heap γ} {g : α → M δ} {S : Mem UInt8 → γ → δ → Prop} {m : Mem UInt8}
    (h : ∀ a, v = .ok a → Does (f a) (g a) S m) : Does (eval v >>= f) (v >>= g) S m := by
  show Does (Heap.seq (eval v) f) _ _ _
  cases v with
  | ok a => exact h a rfl
  | error e => exact ⟨Keeps.refl m, rfl⟩

theorem does_read {γ δ : Type} {s : Slice} {f : Bytes → Heap γ} {w : M δ} {S : Mem UInt8 → γ → δ → Prop} {m : Mem UInt8}
    (h : Does (f (m.read s)) w S m) : Does (Heap.read s >>= f) w S m := h

theorem does_error {α β : Type} {e : Fault} {R : Mem UInt8 → α → β → Prop} {m : Mem UInt8} :
    Does (eval (.error e)) (.error e) R m := ⟨Keeps.refl m, rfl⟩

theorem does_fail {α β : Type} {e : Err} {R : Mem UInt8 → α → β → Prop} {m : Mem UInt8} :
    Does (eval (fail e)) (fail e) R m := ⟨Keeps.refl m, rfl⟩

theorem does_pure {α β : Type} {a : α} {b : β} {R : Mem UInt8 → α → β → Prop} {m : Mem UInt8} (h : R m a b) :
    Does (pure a) (.ok b) R m := ⟨Keeps.refl m, h⟩

theorem does_wrap {α β : Type} {h : Heap α} {v : M β} {R : Mem UInt8 → α → β → Prop} {m : Mem UInt8} (f : String) (o : Nat)
    (h1 : Does h v R m) : Does (wrap f o h) (wrapD f o v) R m := by
  unfold Does Heap.wrap at *
  obtain ⟨hk, h1⟩ := h1
  refine ⟨hk, ?_⟩
  simp only
  generalize (h m).1 = r at *
  generalize (h m).2 = m' at *
  cases r with
  | ok a =>
    cases v with
    | ok b => exact h1
    | error e => exact h1.elim
  | error e =>
    cases v with
    | ok b => exact h1.elim
    | error e' =>
      have h1 : e = e' := h1
      subst h1
      cases e <;> exact rfl

/-- Made since there were `lo` arrays, and none overlapping another. -/
structure New (lo : Nat) (m : Mem UInt8) (ss : List Slice) : Prop where
  fit : ∀ s ∈ ss, s.len ≤ s.cap
  made : ∀ s ∈ ss, ∀ a p, Covers s a p → lo ≤ a ∧ a < m.next
  apart : ss.Pairwise Disjoint
  zero : ∀ s ∈ ss, s.cap = 0 → s.arr = 0

theorem read_from (m : Mem UInt8) (s : Slice) (n : Nat) : m.read (from_ s n) = (m.read s).drop n := by
  apply List.ext_getElem?
  intro i
  rw [List.getElem?_drop, read_get, read_get]
  show (if i < s.len - n then some (m.get s.arr (s.off + n + i)) else none) = _
  by_cases h : i < s.len - n
  · rw [if_pos h, if_pos (by omega), Nat.add_assoc]
  · rw [if_neg h, if_neg (by omega)]

theorem keeps_read {m m' : Mem UInt8} (h : Keeps m m') {s : Slice} (hs : s.len ≤ s.cap) (hn : ∀ a p, Covers s a p → a < m.next) :
    m'.read s = m.read s := by
  refine read_congr fun a p hu => h.2 a p (hn a p ?_)
  unfold Used at hu
  unfold Covers
  omega

theorem keeps_src {m m' : Mem UInt8} (h : Keeps m m') {s : Slice} (hs : s.arr < m.next) : m'.read s = m.read s :=
  read_congr fun a p hu => h.2 a p (by rw [hu.1]; exact hs)

/-- `append([]byte(nil), b...)`. -/
theorem does_copy {γ δ : Type} {b : Bytes} {grow : Nat → Nat} {f : Slice → Heap γ} {w : M δ} {S : Mem UInt8 → γ → δ → Prop}
    {m : Mem UInt8} (h : ∀ m' s, Keeps m m' → m'.read s = b → New m.next m' [s] → Does (f s) w S m') :
    Does (copyOf grow b >>= f) w S m := by
  have key : ∃ m' s, copyOf grow b m = (.ok s, m') ∧ Keeps m m' ∧ m'.read s = b ∧ New m.next m' [s] := by
    unfold copyOf Mem.append
    by_cases hb : b = []
    · subst hb
      refine ⟨_, _, rfl, ?_, ?_, ?_⟩
      · refine ⟨Nat.le_refl _, fun a p _ => ?_⟩
        rw [if_pos (by simp [nilSlice])]
        exact write_get m 0 0 [] a p (by simp)
      · rw [if_pos (by simp [nilSlice])]; simp [Mem.read, nilSlice]
      · rw [if_pos (by simp [nilSlice])]
        refine ⟨by simp [nilSlice], ?_, by simp, by simp [nilSlice]⟩
        intro s hs a p hc
        rw [List.mem_singleton.1 hs] at hc
        unfold Covers nilSlice at hc
        simp at hc
    · have hl : b.length ≠ 0 := by simpa using hb
      have hneg : ¬ (nilSlice.len + b.length ≤ nilSlice.cap) := by simp [nilSlice]; exact hb
      refine ⟨_, _, rfl, ?_, ?_, ?_⟩
      · simp only [if_neg hneg]
        refine ⟨Nat.le_succ _, fun a p ha => ?_⟩
        apply write_get
        omega
      · simp only [if_neg hneg]
        apply List.ext_getElem?
        intro i
        rw [read_get]
        simp only [nilSlice, Nat.zero_add]
        have e : m.read ⟨0, 0, 0, 0⟩ ++ b = b := by simp [Mem.read]
        rw [e]
        by_cases hi : i < b.length
        · rw [if_pos hi, List.getElem?_eq_getElem hi]
          have := write_get_in ({ m with next := m.next + 1 } : Mem UInt8) m.next 0 b i b[i] (List.getElem?_eq_getElem hi)
          rw [Nat.zero_add] at this
          rw [this]
        · rw [if_neg hi, List.getElem?_eq_none (by omega)]
      · simp only [if_neg hneg]
        refine ⟨by simp, ?_, by simp, fun s hs hc => ?_⟩
        rotate_left
        · rw [List.mem_singleton.1 hs] at hc
          simp [nilSlice, hb] at hc
        intro s hs a p hc
        rw [List.mem_singleton.1 hs] at hc
        unfold Covers at hc
        simp only [Mem.write] at hc ⊢
        omega
  obtain ⟨m', s, e, h1, h2, h3⟩ := key
  have h4 := h m' s h1 h2 h3
  show Does (Heap.seq _ _) _ _ _
  unfold Does Heap.seq
  rw [e]
  exact ⟨h1.trans h4.1, h4.2⟩

/-- Slices made later do not overlap those made before. -/
theorem New.append {lo : Nat} {m m' : Mem UInt8} {ss ts : List Slice} (h : New lo m ss) (h' : New m.next m' ts)
    (hk : m.next ≤ m'.next) (hlo : lo ≤ m.next) : New lo m' (ss ++ ts) := by
  refine ⟨?_, ?_, ?_, fun s hs => (List.mem_append.1 hs).elim (h.zero s) (h'.zero s)⟩
  · intro s hs
    rcases List.mem_append.1 hs with hs | hs
    · exact h.fit s hs
    · exact h'.fit s hs
  · intro s hs a p hc
    rcases List.mem_append.1 hs with hs | hs
    · have := h.made s hs a p hc; omega
    · have := h'.made s hs a p hc; omega
  · rw [List.pairwise_append]
    refine ⟨h.apart, h'.apart, fun s hs t ht a p hc hc' => ?_⟩
    have := h.made s hs a p hc
    have := h'.made t ht a p hc'
    omega

theorem New.perm {lo : Nat} {m : Mem UInt8} {ss ts : List Slice} (h : New lo m ss) (hp : ss.Perm ts) : New lo m ts :=
  ⟨fun s hs => h.fit s (hp.mem_iff.2 hs), fun s hs => h.made s (hp.mem_iff.2 hs),
    (hp.pairwise_iff (fun hd a p h1 h2 => hd a p h2 h1)).1 h.apart, fun s hs => h.zero s (hp.mem_iff.2 hs)⟩

theorem New.keep {lo : Nat} {m m' : Mem UInt8} {ss : List Slice} (h : New lo m ss) (hk : Keeps m m') :
    New lo m' ss ∧ ∀ s ∈ ss, m'.read s = m.read s :=
  ⟨⟨h.fit, fun s hs a p hc => ⟨(h.made s hs a p hc).1, Nat.lt_of_lt_of_le (h.made s hs a p hc).2 hk.1⟩, h.apart, h.zero⟩,
    fun s hs => keeps_read hk (h.fit s hs) (fun a p hc => (h.made s hs a p hc).2)⟩

/-- What is known of elements in memory. -/
def Elems (lo : Nat) (m : Mem UInt8) (es : List Elem) (ies : List IE) : Prop :=
  es.map (·.load m) = ies ∧ New lo m (es.map (·.data))

theorem loop_does (grow : Nat → Nat) (src : Slice) (udhl : Nat) : ∀ (fuel ri : Nat) (m : Mem UInt8), src.arr < m.next →
    Does (unmarshalLoop grow src udhl fuel ri) (UDH.unmarshalLoop (m.read src) udhl fuel ri) (Elems m.next) m := by
  intro fuel
  induction fuel with
  | zero => intro ri m _; exact ⟨Keeps.refl m, rfl⟩
  | succ fuel ih =>
    intro ri m hs
    unfold unmarshalLoop UDH.unmarshalLoop
    refine does_read ?_
    by_cases h1 : ri < udhl
    · rw [if_pos h1, if_pos h1]
      by_cases h2 : udhl < ri + 2
      · rw [if_pos h2, if_pos h2]; exact does_fail
      · rw [if_neg h2, if_neg h2]
        refine does_eval fun id _ => ?_
        refine does_eval fun l _ => ?_
        simp only
        by_cases h3 : (m.read src).length < ri + 2 + l.toNat
        · rw [if_pos h3, if_pos h3]; exact does_fail
        · rw [if_neg h3, if_neg h3]
          refine does_eval fun data _ => ?_
          refine does_copy fun m1 s k1 r1 n1 => ?_
          rw [← keeps_src k1 hs]
          refine does_bind (ih _ m1 (Nat.lt_of_lt_of_le hs k1.1)) fun m2 es ies k2 hr _ => ?_
          refine does_pure ⟨?_, ?_⟩
          · simp only [List.map_cons, hr.1]
            have := (n1.keep k2).2 s (by simp)
            simp only [Elem.load, this, r1]
          · exact n1.append hr.2 k2.1 k1.1
    · rw [if_neg h1, if_neg h1]
      exact does_pure ⟨rfl, ⟨by simp, by simp, by simp, by simp⟩⟩

theorem slice_tail {α : Type} (b : List α) (n : Nat) (h : n ≤ b.length) : slice b n b.length = .ok (b.drop n) := by
  unfold slice
  rw [if_pos (by omega)]
  congr 1
  rw [Int.toNat_natCast, Int.toNat_natCast, List.take_length]

theorem slice_tail_ok {α : Type} {b s : List α} {n : Nat} (h : slice b n b.length = .ok s) : s = b.drop n ∧ n ≤ b.length := by
  by_cases hn : n ≤ b.length
  · rw [slice_tail b n hn] at h; cases h; exact ⟨rfl, hn⟩
  · unfold slice at h
    rw [if_neg (by omega)] at h
    cases h

theorem udh_does (grow : Nat → Nat) (src : Slice) (m : Mem UInt8) (hs : src.arr < m.next) :
    Does (unmarshalUDH grow src) (UDH.UnmarshalBinary (m.read src)) (fun m' a b => Elems m.next m' a.1 b.1 ∧ a.2 = b.2) m := by
  unfold unmarshalUDH UDH.UnmarshalBinary
  refine does_read ?_
  by_cases h1 : (m.read src).length < 1
  · rw [if_pos h1, if_pos h1]; exact does_fail
  · rw [if_neg h1, if_neg h1]
    refine does_eval fun l _ => ?_
    simp only
    by_cases h2 : (m.read src).length < l.toNat + 1
    · rw [if_pos h2, if_pos h2]; exact does_fail
    · rw [if_neg h2, if_neg h2]
      refine does_bind (loop_does grow src _ _ _ m hs) fun m2 es ies k2 hr _ => ?_
      exact does_pure ⟨hr, rfl⟩

/-- What is known of a TPDU in memory. -/
def Whole' (lo : Nat) (m : Mem UInt8) (o : Loaded) (t : TPDU) : Prop := o.load m = t ∧ New lo m (slicesOf o)

theorem nil_new (lo : Nat) (m : Mem UInt8) : New lo m [nilSlice] := by
  refine ⟨by simp [nilSlice], ?_, by simp, by simp [nilSlice]⟩
  intro s hs a p hc
  rw [List.mem_singleton.1 hs] at hc
  unfold Covers nilSlice at hc
  simp at hc

theorem nil_whole (lo : Nat) (m : Mem UInt8) (t : TPDU) (ht : t.UD = [] ∧ t.UDH = []) : Whole' lo m ⟨t, nilSlice, []⟩ t := by
  refine ⟨?_, nil_new lo m⟩
  obtain ⟨h1, h2⟩ := ht
  cases t
  simp only at h1 h2
  subst h1; subst h2
  rfl

theorem from_arr (s : Slice) (n : Nat) : (from_ s n).arr = s.arr := rfl

theorem userData_does (grow : Nat → Nat) (t : TPDU) (ht : t.UD = [] ∧ t.UDH = []) (src : Slice) (m : Mem UInt8)
    (hs : src.arr < m.next) :
    Does (Buffer.decodeUserData grow t src) (t.decodeUserData (m.read src)) (Whole' m.next) m := by
  unfold Buffer.decodeUserData TPDU.decodeUserData
  refine does_read ?_
  by_cases h1 : (m.read src).length < 1
  · rw [if_pos h1, if_pos h1]; exact does_fail
  · rw [if_neg h1, if_neg h1]
    refine does_eval fun udl _ => ?_
    simp only
    by_cases h0 : udl.toNat = 0
    · rw [if_pos h0, if_pos h0]; exact does_pure (nil_whole _ _ t ht)
    · rw [if_neg h0, if_neg h0]
      rcases hA : t.Alphabet with ⟨alphabet, _ | e⟩
      · simp only
        generalize hn : (if alphabet = Alphabet.a7Bit then ((if alphabet = Alphabet.a7Bit then udl.toNat else 0) * 7 + 7) / 8 else udl.toNat) = n
        by_cases h2 : (m.read src).length < 1 + n
        · rw [if_pos h2, if_pos h2]; exact does_fail
        · rw [if_neg h2, if_neg h2]
          by_cases h3 : (m.read src).length > 1 + n
          · rw [if_pos h3, if_pos h3]; exact does_fail
          · rw [if_neg h3, if_neg h3]
            have hud : Does (if t.UDHI then wrap "udh" 1 (unmarshalUDH grow (from_ src 1)) else ret ([], 0) : Heap (List Elem × Nat))
                (if t.UDHI then do
                    let s ← slice (m.read src) (1 : Nat) (m.read src).length
                    wrapD "udh" 1 (UDH.UnmarshalBinary s)
                  else .ok ([], 0) : M (Model.UDH × Nat)) (fun m' a b => Elems m.next m' a.1 b.1 ∧ a.2 = b.2) m := by
              by_cases hu : t.UDHI = true
              · rw [if_pos hu, if_pos hu, slice_tail _ 1 (by omega), ← read_from]
                exact does_wrap "udh" 1 (udh_does grow (from_ src 1) m hs)
              · rw [if_neg hu, if_neg hu]
                exact ⟨Keeps.refl m, ⟨rfl, ⟨by simp, by simp, by simp, by simp⟩⟩, rfl⟩
            refine does_bind hud fun m1 a b k1 hr _ => ?_
            obtain ⟨es, l⟩ := a
            obtain ⟨ies, l'⟩ := b
            obtain ⟨⟨r1, r2⟩, r3⟩ := hr
            simp only at r1 r2 r3
            subst r3
            simp only
            have hfin : ∀ (m2 : Mem UInt8) (s : Slice) (d : Bytes), Keeps m1 m2 → m2.read s = d → New m1.next m2 [s] →
                Whole' m.next m2 ⟨t, s, es⟩ { t with UD := d, UDH := ies } := by
              intro m2 s d k2 hr hnew
              refine ⟨?_, ?_⟩
              · have : es.map (·.load m2) = ies := by
                  rw [← r1]
                  apply List.map_congr_left
                  intro e he
                  unfold Elem.load
                  rw [(r2.keep k2).2 e.data (List.mem_map_of_mem he)]
                simp only [Loaded.load, hr, this]
              · exact (r2.append hnew k2.1 k1.1).perm (List.perm_append_comm (l₁ := es.map (·.data)) (l₂ := [s]))
            by_cases h4 : 1 + l = (m.read src).length
            · rw [if_pos h4, if_pos h4]
              refine does_pure ?_
              have := hfin m1 nilSlice [] (Keeps.refl m1) rfl (nil_new _ _)
              rw [← ht.1] at this
              exact this
            · rw [if_neg h4, if_neg h4]
              refine does_eval fun s _ => ?_
              by_cases h5 : alphabet = .a7Bit
              · simp only [if_pos h5]
                refine does_eval fun sm _ => ?_
                refine does_copy fun m2 u k2 q1 q2 => ?_
                exact does_pure (hfin m2 u sm k2 q1 q2)
              · simp only [if_neg h5]
                by_cases h6 : alphabet = .ucs2 ∧ s.length % 2 = 1
                · rw [if_pos h6, if_pos h6]; exact does_fail
                · rw [if_neg h6, if_neg h6]
                  refine does_copy fun m2 u k2 q1 q2 => ?_
                  exact does_pure (hfin m2 u s k2 q1 q2)
      · exact does_fail

theorem ud_at_does (grow : Nat → Nat) (t : TPDU) (ht : t.UD = [] ∧ t.UDH = []) (src : Slice) (m : Mem UInt8)
    (hs : src.arr < m.next) (n : Nat) (b : Bytes) (hb : b = (m.read src).drop n) :
    Does (wrap "ud" n (Buffer.decodeUserData grow t (from_ src n))) (wrapD "ud" n (t.decodeUserData b)) (Whole' m.next) m := by
  rw [hb, ← read_from]
  exact does_wrap "ud" n (userData_does grow t ht (from_ src n) m hs)

theorem readByte_tail {f : String} {o : Nat} {b : Bytes} {r : UInt8 × Bytes} (h : wrapD f o (TPDU.readByte b) = .ok r) :
    r.2 = b.drop 1 ∧ 1 ≤ b.length := by
  cases b with
  | nil => simp [TPDU.readByte, wrapD, fail] at h
  | cons x b =>
    have : (.ok (x, b) : M (UInt8 × Bytes)) = .ok r := h
    cases this
    simp

/-- Dropping is dropping from the whole. -/
theorem tail_of_drop {s b : Bytes} {k : Nat} (h : b = s.drop k) : b = s.drop (s.length - b.length) := by
  by_cases hk : k ≤ s.length
  · have : s.length - b.length = k := by rw [h, List.length_drop]; omega
    rw [this]; exact h
  · have h0 : b = [] := by rw [h]; exact List.drop_eq_nil_of_le (by omega)
    rw [h0]; simp

theorem command_does (grow : Nat → Nat) (t : TPDU) (ht : t.UD = [] ∧ t.UDH = []) (src : Slice) (m : Mem UInt8)
    (hs : src.arr < m.next) : Does (Buffer.unmarshalCommand grow t src) (t.unmarshalCommand (m.read src)) (Whole' m.next) m := by
  unfold Buffer.unmarshalCommand TPDU.unmarshalCommand
  refine does_read ?_
  simp only
  refine does_eval fun ⟨mr, b1⟩ h1 => ?_
  have h1 := (readByte_tail h1).1
  simp only at h1 ⊢
  refine does_eval fun ⟨pid, b2⟩ h2 => ?_
  have h2 := (readByte_tail h2).1
  simp only at h2 ⊢
  refine does_eval fun ⟨ct, b3⟩ h3 => ?_
  have h3 := (readByte_tail h3).1
  simp only at h3 ⊢
  refine does_eval fun ⟨mn, b4⟩ h4 => ?_
  have h4 := (readByte_tail h4).1
  simp only at h4 ⊢
  refine does_eval fun ⟨da, n⟩ _ => ?_
  simp only
  refine ud_at_does grow _ (by exact ht) src m hs _ _ ?_
  apply tail_of_drop (k := 1 + 1 + 1 + 1 + n)
  rw [h4, h3, h2, h1]
  simp only [List.drop_drop]

theorem deliver_does (grow : Nat → Nat) (t : TPDU) (ht : t.UD = [] ∧ t.UDH = []) (src : Slice) (m : Mem UInt8)
    (hs : src.arr < m.next) : Does (Buffer.unmarshalDeliver grow t src) (t.unmarshalDeliver (m.read src)) (Whole' m.next) m := by
  unfold Buffer.unmarshalDeliver TPDU.unmarshalDeliver
  refine does_read ?_
  refine does_eval fun ⟨oa, n⟩ _ => ?_
  simp only
  refine does_eval fun b0 h0 => ?_
  have h0 := (slice_tail_ok h0).1
  refine does_eval fun ⟨pid, b1⟩ h1 => ?_
  have h1 := (readByte_tail h1).1
  simp only at h1 ⊢
  refine does_eval fun ⟨dcs, b2⟩ h2 => ?_
  have h2 := (readByte_tail h2).1
  simp only at h2 ⊢
  refine does_eval fun scts _ => ?_
  refine ud_at_does grow _ (by exact ht) src m hs _ _ ?_
  apply tail_of_drop (k := n + 1 + 1 + 7)
  rw [h2, h1, h0]
  simp only [List.drop_drop]

theorem optionals_does (grow : Nat → Nat) (t : TPDU) (ht : t.UD = [] ∧ t.UDH = []) (src : Slice) (m : Mem UInt8)
    (hs : src.arr < m.next) (ri : Nat) :
    Does (Buffer.unmarshalOptionals grow t src ri) (t.unmarshalOptionals (m.read src) ri) (Whole' m.next) m := by
  unfold Buffer.unmarshalOptionals TPDU.unmarshalOptionals
  refine does_read ?_
  refine does_eval fun ⟨t1, r1⟩ h1 => ?_
  have ht1 : t1.UD = [] ∧ t1.UDH = [] := by
    split at h1
    · obtain ⟨b, _, h1⟩ := bind_eq_ok.1 h1
      cases h1
      exact ht
    · cases h1; exact ht
  simp only
  refine does_eval fun ⟨t2, r2⟩ h2 => ?_
  have ht2 : t2.UD = [] ∧ t2.UDH = [] := by
    split at h2
    · obtain ⟨b, _, h2⟩ := bind_eq_ok.1 h2
      cases h2
      exact ht1
    · cases h2; exact ht1
  simp only
  by_cases hu : PI.UDL t2.PI = true
  · rw [if_pos hu, if_pos hu]
    refine does_eval fun s h => ?_
    exact ud_at_does grow t2 ht2 src m hs r2 s (slice_tail_ok h).1
  · rw [if_neg hu, if_neg hu]
    exact does_pure (nil_whole _ _ t2 ht2)

theorem deliverReport_does (grow : Nat → Nat) (t : TPDU) (ht : t.UD = [] ∧ t.UDH = []) (src : Slice) (m : Mem UInt8)
    (hs : src.arr < m.next) :
    Does (Buffer.unmarshalDeliverReport grow t src) (t.unmarshalDeliverReport (m.read src)) (Whole' m.next) m := by
  unfold Buffer.unmarshalDeliverReport TPDU.unmarshalDeliverReport
  refine does_read ?_
  refine does_eval fun fcs _ => ?_
  refine does_eval fun pi _ => ?_
  exact optionals_does grow _ (by exact ht) src m hs 2

theorem statusReport_does (grow : Nat → Nat) (t : TPDU) (ht : t.UD = [] ∧ t.UDH = []) (src : Slice) (m : Mem UInt8)
    (hs : src.arr < m.next) :
    Does (Buffer.unmarshalStatusReport grow t src) (t.unmarshalStatusReport (m.read src)) (Whole' m.next) m := by
  unfold Buffer.unmarshalStatusReport TPDU.unmarshalStatusReport
  refine does_read ?_
  refine does_eval fun mr _ => ?_
  refine does_eval fun s _ => ?_
  refine does_eval fun ⟨ra, n⟩ _ => ?_
  simp only
  by_cases h1 : (m.read src).length < 1 + n + 7
  · rw [if_pos h1, if_pos h1]; exact does_fail
  · rw [if_neg h1, if_neg h1]
    refine does_eval fun s _ => ?_
    refine does_eval fun scts _ => ?_
    by_cases h2 : (m.read src).length < 1 + n + 7 + 7
    · rw [if_pos h2, if_pos h2]; exact does_fail
    · rw [if_neg h2, if_neg h2]
      refine does_eval fun s _ => ?_
      refine does_eval fun dt _ => ?_
      refine does_eval fun st _ => ?_
      by_cases h3 : (m.read src).length > 1 + n + 7 + 7 + 1
      · rw [if_pos h3, if_pos h3]
        refine does_eval fun pi _ => ?_
        exact optionals_does grow _ (by exact ht) src m hs _
      · rw [if_neg h3, if_neg h3]
        exact does_pure (nil_whole _ _ _ (by exact ht))

theorem submit_does (grow : Nat → Nat) (t : TPDU) (ht : t.UD = [] ∧ t.UDH = []) (src : Slice) (m : Mem UInt8)
    (hs : src.arr < m.next) : Does (Buffer.unmarshalSubmit grow t src) (t.unmarshalSubmit (m.read src)) (Whole' m.next) m := by
  unfold Buffer.unmarshalSubmit TPDU.unmarshalSubmit
  refine does_read ?_
  refine does_eval fun mr _ => ?_
  refine does_eval fun s _ => ?_
  refine does_eval fun ⟨da, n⟩ _ => ?_
  simp only
  refine does_eval fun pid _ => ?_
  refine does_eval fun dcs _ => ?_
  refine does_eval fun s _ => ?_
  refine does_eval fun ⟨vp, k⟩ _ => ?_
  simp only
  refine does_eval fun s h => ?_
  exact ud_at_does grow _ (by exact ht) src m hs _ s (slice_tail_ok h).1

theorem submitReport_does (grow : Nat → Nat) (t : TPDU) (ht : t.UD = [] ∧ t.UDH = []) (src : Slice) (m : Mem UInt8)
    (hs : src.arr < m.next) :
    Does (Buffer.unmarshalSubmitReport grow t src) (t.unmarshalSubmitReport (m.read src)) (Whole' m.next) m := by
  unfold Buffer.unmarshalSubmitReport TPDU.unmarshalSubmitReport
  refine does_read ?_
  refine does_eval fun fcs _ => ?_
  refine does_eval fun pi _ => ?_
  simp only
  by_cases h1 : (m.read src).length < 2 + 7
  · rw [if_pos h1, if_pos h1]; exact does_fail
  · rw [if_neg h1, if_neg h1]
    refine does_eval fun s _ => ?_
    refine does_eval fun scts _ => ?_
    exact optionals_does grow _ (by exact ht) src m hs _

theorem does_if {α β : Type} {c : Prop} [Decidable c] {h h' : Heap α} {v v' : M β} {R : Mem UInt8 → α → β → Prop} {m : Mem UInt8}
    (h1 : c → Does h v R m) (h2 : ¬ c → Does h' v' R m) : Does (if c then h else h') (if c then v else v') R m := by
  by_cases hc : c
  · rw [if_pos hc, if_pos hc]; exact h1 hc
  · rw [if_neg hc, if_neg hc]; exact h2 hc

theorem unmarshal_does (grow : Nat → Nat) (src : Slice) (dirn : Int) (m : Mem UInt8) (hs : src.arr < m.next) :
    Does (Buffer.Unmarshal grow src dirn) (Model.Sms.Unmarshal (m.read src) dirn) (Whole' m.next) m := by
  unfold Buffer.Unmarshal Model.Sms.Unmarshal TPDU.UnmarshalBinary
  refine does_read ?_
  refine does_if (fun _ => does_fail) fun hl => ?_
  refine does_eval fun fo _ => ?_
  simp only
  have hb : slice (m.read src) 1 (m.read src).length = .ok (m.read (from_ src 1)) := by
    rw [read_from]; exact slice_tail _ 1 (by omega)
  rw [hb, ok_bind]
  have h0 : ({ Direction := dirn, FirstOctet := fo } : TPDU).UD = [] ∧ ({ Direction := dirn, FirstOctet := fo } : TPDU).UDH = [] :=
    ⟨rfl, rfl⟩
  refine does_if (fun _ => does_wrap _ _ (deliver_does grow _ h0 _ m hs)) fun _ => ?_
  refine does_if (fun _ => does_wrap _ _ (deliverReport_does grow _ h0 _ m hs)) fun _ => ?_
  refine does_if (fun _ => does_wrap _ _ (submitReport_does grow _ h0 _ m hs)) fun _ => ?_
  refine does_if (fun _ => does_wrap _ _ (submit_does grow _ h0 _ m hs)) fun _ => ?_
  refine does_if (fun _ => does_wrap _ _ (statusReport_does grow _ h0 _ m hs)) fun _ => ?_
  refine does_if (fun _ => does_wrap _ _ (command_does grow _ h0 _ m hs)) fun _ => ?_
  exact does_fail

theorem pdu_does (src : Slice) (m : Mem UInt8) :
    Does (unmarshalPDU src) (PDU.UnmarshalBinary (m.read src))
      (fun m' a p => m' = m ∧ a.1 = p.SMSC ∧ m.read a.2 = p.TPDU ∧ ∃ n, n ≤ src.len ∧ a.2 = from_ src n) m := by
  unfold unmarshalPDU PDU.UnmarshalBinary PDU.unmarshalBinary
  refine does_read ?_
  refine does_eval fun ⟨smsc, n⟩ _ => ?_
  simp only
  refine does_eval fun t h => ?_
  have h := slice_tail_ok h
  refine does_pure ⟨rfl, rfl, ?_, n, ?_, rfl⟩
  · rw [read_from]; exact h.1.symm
  · have := h.2; rwa [read_length] at this

theorem modem_does (grow : Nat → Nat) (dirn : Int) (src : Slice) (m : Mem UInt8) (hs : src.arr < m.next) :
    Does (fromModem grow dirn src) (PDU.UnmarshalBinary (m.read src) >>= fun p => Model.Sms.Unmarshal p.TPDU dirn) (Whole' m.next) m := by
  unfold fromModem
  refine does_bind (pdu_does src m) fun m' a p _ h _ => ?_
  obtain ⟨rfl, _, h, n, _, e⟩ := h
  rw [← h]
  refine unmarshal_does grow a.2 dirn m' ?_
  rw [e]; exact hs

theorem read_written (m : Mem UInt8) (s : Slice) (b : Bytes) :
    (m.write s.arr s.off b).read { s with len := b.length } = b := by
  apply List.ext_getElem?
  intro i
  rw [read_get]
  by_cases hi : i < b.length
  · rw [if_pos hi, List.getElem?_eq_getElem hi]
    rw [write_get_in m s.arr s.off b i b[i] (List.getElem?_eq_getElem hi)]
  · rw [if_neg hi, List.getElem?_eq_none (by omega)]

/-- What `Does` says of an outcome. -/
theorem does_outcome {h : Heap Loaded} {v : M TPDU} {lo : Nat} {m : Mem UInt8} (hd : Does h v (Whole' lo) m) :
    (h m).1.map (·.load (h m).2) = v ∧ ∀ o, (h m).1 = .ok o → New lo (h m).2 (slicesOf o) := by
  unfold Does at hd
  obtain ⟨_, hd⟩ := hd
  generalize (h m).1 = r at *
  generalize (h m).2 = m' at *
  cases r with
  | ok a =>
    cases v with
    | ok b => exact ⟨by rw [← hd.1]; rfl, fun o ho => by cases ho; exact hd.2⟩
    | error e => exact hd.elim
  | error e =>
    cases v with
    | ok b => exact hd.elim
    | error e' => exact ⟨by rw [hd]; rfl, fun o ho => by cases ho⟩

theorem load_congr {m m' : Mem UInt8} {o : Loaded} (hf : ∀ s ∈ slicesOf o, s.len ≤ s.cap)
    (h : ∀ s ∈ slicesOf o, ∀ a p, Covers s a p → m'.get a p = m.get a p) : o.load m' = o.load m := by
  have hr : ∀ s ∈ slicesOf o, m'.read s = m.read s := by
    intro s hs
    refine read_congr fun a p hu => h s hs a p ?_
    have := hf s hs
    unfold Used at hu
    unfold Covers
    omega
  have hm : o.udh.map (·.load m') = o.udh.map (·.load m) := by
    apply List.map_congr_left
    intro e he
    unfold Elem.load
    rw [hr e.data (by unfold slicesOf; exact List.mem_cons_of_mem _ (List.mem_map_of_mem he))]
  unfold Loaded.load
  rw [hr o.ud (by simp [slicesOf]), hm]

theorem receive_keeps {f : Slice → Heap Loaded} {v : Bytes → M TPDU} (buf : Slice)
    (hf : ∀ s m, s.arr < m.next → Does (f s) (v (m.read s)) (Whole' m.next) m) :
    ∀ (bs : List Bytes) (m : Mem UInt8), buf.arr < m.next →
      m.next ≤ (receiveAll f buf bs m).2.next ∧
      ∀ a p, a < m.next → a ≠ buf.arr → (receiveAll f buf bs m).2.get a p = m.get a p := by
  intro bs
  induction bs with
  | nil => intro m _; exact ⟨Nat.le_refl _, fun _ _ _ _ => rfl⟩
  | cons b bs ih =>
    intro m hm
    have h1 := (hf { buf with len := b.length } (m.write buf.arr buf.off b) hm).1
    have h2 := ih _ (Nat.lt_of_lt_of_le hm h1.1)
    refine ⟨Nat.le_trans h1.1 h2.1, fun a p ha hne => ?_⟩
    show (receiveAll f buf bs _).2.get a p = _
    rw [h2.2 a p (Nat.lt_of_lt_of_le ha h1.1) hne, h1.2 a p ha]
    exact write_get _ _ _ _ _ _ (fun h => hne h.1)

theorem receive_all {f : Slice → Heap Loaded} {v : Bytes → M TPDU} (buf : Slice)
    (hf : ∀ s m, s.arr < m.next → Does (f s) (v (m.read s)) (Whole' m.next) m) :
    ∀ (bs : List Bytes) (m : Mem UInt8), buf.arr < m.next →
      (receiveAll f buf bs m).1.map (fun r => r.map (·.load (receiveAll f buf bs m).2)) = bs.map v := by
  intro bs
  induction bs with
  | nil => intro m _; rfl
  | cons b bs ih =>
    intro m hm
    have hd := hf { buf with len := b.length } (m.write buf.arr buf.off b) hm
    have hk := hd.1
    have ho := does_outcome hd
    rw [read_written] at ho
    have hm' := Nat.lt_of_lt_of_le hm hk.1
    have hi := ih _ hm'
    have hq := receive_keeps buf hf bs _ hm'
    show Except.map _ (f _ _).1 :: _ = _
    rw [List.map_cons]
    refine List.cons_eq_cons.2 ⟨?_, hi⟩
    rw [← ho.1]
    have e2 : (receiveAll f buf (b :: bs) m).2 =
      (receiveAll f buf bs (f { buf with len := b.length } (m.write buf.arr buf.off b)).2).2 := rfl
    rw [e2]
    generalize hr : f { buf with len := b.length } (m.write buf.arr buf.off b) = r at *
    obtain ⟨r, m1⟩ := r
    cases r with
    | error e => rfl
    | ok o =>
      have hn := ho.2 o rfl
      show Except.ok _ = Except.ok _
      congr 1
      refine load_congr hn.fit fun s hs a p hc => ?_
      have := hn.made s hs a p hc
      refine hq.2 a p this.2 ?_
      have h3 : m.next ≤ a := this.1
      omega

/-- The TPDUs kept by a receiver have slices of their own. -/
theorem receive_new {f : Slice → Heap Loaded} {v : Bytes → M TPDU} (buf : Slice)
    (hf : ∀ s m, s.arr < m.next → Does (f s) (v (m.read s)) (Whole' m.next) m) :
    ∀ (bs : List Bytes) (m : Mem UInt8) (os : List Loaded), buf.arr < m.next → (receiveAll f buf bs m).1 = os.map .ok →
      New m.next (receiveAll f buf bs m).2 (os.flatMap slicesOf) := by
  intro bs
  induction bs with
  | nil =>
    intro m os _ h
    cases os with
    | nil => exact ⟨by simp, by simp, by simp, by simp⟩
    | cons o os => cases h
  | cons b bs ih =>
    intro m os hm h
    have hd := hf { buf with len := b.length } (m.write buf.arr buf.off b) hm
    have hk := hd.1
    have ho := does_outcome hd
    have hm' := Nat.lt_of_lt_of_le hm hk.1
    have hq := receive_keeps buf hf bs _ hm'
    cases os with
    | nil => cases h
    | cons o os =>
      have h : _ :: _ = Except.ok o :: os.map Except.ok := h
      have h1 := (List.cons.inj h).1
      have h2 := ih _ os hm' (List.cons.inj h).2
      exact (ho.2 o h1).append h2 hq.1 hk.1

theorem pairwise_flatMap {α β : Type} {R : β → β → Prop} {f : α → List β} {g : α → β} (hg : ∀ a, g a ∈ f a) :
    ∀ l : List α, (l.flatMap f).Pairwise R → (l.map g).Pairwise R := by
  intro l
  induction l with
  | nil => intro _; exact .nil
  | cons a l ih =>
    intro h
    rw [List.flatMap_cons, List.pairwise_append] at h
    rw [List.map_cons, List.pairwise_cons]
    refine ⟨fun b hb => ?_, ih h.2.1⟩
    obtain ⟨a', ha', rfl⟩ := List.mem_map.1 hb
    exact h.2.2 (g a) (hg a) (g a') (List.mem_flatMap.2 ⟨a', ha', hg a'⟩)

/-- The data of an element does not overlap the user data of any TPDU. -/
theorem apart_elem {kept : List Loaded} (h : (kept.flatMap slicesOf).Pairwise Disjoint) {o o' : Loaded} (ho : o ∈ kept)
    (ho' : o' ∈ kept) {e : Elem} (he : e ∈ o.udh) (a p : Nat) (hc : Covers e.data a p) (hc' : Covers o'.ud a p) : False := by
  induction kept with
  | nil => cases ho
  | cons x l ih =>
    rw [List.flatMap_cons, List.pairwise_append] at h
    have hd : e.data ∈ slicesOf o := by unfold slicesOf; exact List.mem_cons_of_mem _ (List.mem_map_of_mem he)
    have hud : o'.ud ∈ slicesOf o' := by simp [slicesOf]
    rcases List.mem_cons.1 ho with rfl | ho1
    · rcases List.mem_cons.1 ho' with rfl | ho2
      · have h1 := h.1
        unfold slicesOf at h1
        exact (List.pairwise_cons.1 h1).1 e.data (List.mem_map_of_mem he) a p hc' hc
      · exact h.2.2 _ hd _ (List.mem_flatMap.2 ⟨o', ho2, hud⟩) a p hc hc'
    · rcases List.mem_cons.1 ho' with rfl | ho2
      · exact h.2.2 _ hud _ (List.mem_flatMap.2 ⟨o, ho1, hd⟩) a p hc' hc
      · exact ih h.2.1 ho1 ho2

end Verif.Proofs.Buffer
