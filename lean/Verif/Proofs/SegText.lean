import Verif.Proofs.Segment2
import Verif.Proofs.Gsm7

/-! Segmentation and decoding. -/

namespace Verif.Proofs
open Verif.Model Verif.Spec

/-- The pieces that segmentation produces. -/
theorem segment_pieces (t : TPDU) (msg : Bytes) (cfg : SegCfg) (hne : msg ≠ []) (h : Room t cfg)
    (hbig : ¬ (msg.length : Int) ≤ t.UDBlockSize) :
    ∃ res cs bs, t.Segment msg cfg = .ok res ∧ (segTemplate t cfg).UDBlockSize = (bs : Nat) ∧ minBlock t.Alphabet.1 ≤ bs ∧
      cs = cutsLoop (adjOf msg t.Alphabet.1) (roundBlock t.Alphabet.1 bs) msg (msg.length + 1) 0 ∧
      res.pdus = cs.mapIdx (fun k c => segPdu t cfg cs.length k c) ∧ res.pdus.map (·.UD) = cs ∧
      AdjOk (adjOf msg t.Alphabet.1) (roundBlock t.Alphabet.1 bs) ∧
      res.cr = cfg.cr.map (advance 1) ∧ res.mr = cfg.mr.map (advance cs.length) := by
  unfold Room at h
  obtain ⟨bs, hbs⟩ : ∃ bs : Nat, (segTemplate t cfg).UDBlockSize = bs := ⟨(segTemplate t cfg).UDBlockSize.toNat, by omega⟩
  have hm : minBlock t.Alphabet.1 ≤ bs := by omega
  obtain ⟨res, cs, h1, h2, h3, h4⟩ := segment_multi t msg cfg hne bs hbs hm hbig
  refine ⟨res, cs, bs, h1, hbs, hm, h2, h3, ?_, adjOf_ok msg _ bs hm, h4⟩
  rw [h3]
  apply List.ext_getElem?
  intro i
  rw [List.getElem?_map, List.getElem?_mapIdx]
  cases cs[i]? <;> rfl

theorem take_of_append (msg a b : Bytes) (h : a ++ b = msg) : msg.take a.length = a ∧ msg.drop a.length = b := by
  subst h; simp

/-- No boundary splits a character. -/
theorem cuts_not_split (msg : Bytes) (a : Alphabet) (bs : Nat) (hm : minBlock a ≤ bs)
    (h7 : a ≠ .ucs2 → a ≠ .a8Bit → NoTripleEsc msg)
    (pre suf : List Bytes) (hcs : cutsLoop (adjOf msg a) (roundBlock a bs) msg (msg.length + 1) 0 = pre ++ suf)
    (hp : pre ≠ []) (hs : suf ≠ []) : ¬ SplitsChar a pre.flatten suf.flatten := by
  have hok := adjOf_ok msg a bs hm
  have hfl : pre.flatten ++ suf.flatten = msg := by
    have := cuts_flatten msg hok (msg.length + 1) 0 (by omega)
    rw [hcs, List.flatten_append] at this
    simpa using this
  obtain ⟨e1, e2⟩ := take_of_append _ _ _ hfl
  cases a with
  | a8Bit => exact id
  | a7Bit =>
    obtain ⟨b, _, _, h3, h4⟩ := cuts_boundary (Q := fun _ => True) msg hok (fun _ _ => trivial) _ 0 (by omega) trivial pre suf hcs hp hs
    simp only [minBlock, roundBlock, adjOf] at *
    show ¬ EscapePending pre.flatten
    rw [← e1]
    rw [Nat.zero_add] at h4
    rw [h4]
    exact adj7_not_pending msg (h7 (by simp) (by simp)) _ (by omega) (by omega)
  | reserved =>
    obtain ⟨b, _, _, h3, h4⟩ := cuts_boundary (Q := fun _ => True) msg hok (fun _ _ => trivial) _ 0 (by omega) trivial pre suf hcs hp hs
    simp only [minBlock, roundBlock, adjOf] at *
    show ¬ EscapePending pre.flatten
    rw [← e1]
    rw [Nat.zero_add] at h4
    rw [h4]
    exact adj7_not_pending msg (h7 (by simp) (by simp)) _ (by omega) (by omega)
  | ucs2 =>
    have hinv : AdjInv (adjOf msg .ucs2) (roundBlock .ucs2 bs) (fun b => b % 2 = 0) :=
      adjU_even msg _ (by simp only [roundBlock]; omega)
    obtain ⟨b, _, h2, h3, h4⟩ := cuts_boundary msg hok hinv _ 0 (by omega) rfl pre suf hcs hp hs
    simp only [minBlock, roundBlock, adjOf] at *
    rw [Nat.zero_add] at h4
    have := adjU_not_split msg (b + (bs - bs % 2)) (by omega) (by omega) (by omega)
    rw [← h4, e1, e2] at this
    exact this

/-- A boundary that splits a character is one in septets, after three escapes. -/
theorem cuts_split (msg : Bytes) (a : Alphabet) (bs : Nat) (hm : minBlock a ≤ bs)
    (pre suf : List Bytes) (hcs : cutsLoop (adjOf msg a) (roundBlock a bs) msg (msg.length + 1) 0 = pre ++ suf)
    (hp : pre ≠ []) (hs : suf ≠ []) (hsp : SplitsChar a pre.flatten suf.flatten) :
    a ≠ .ucs2 ∧ ∃ p, pre.flatten = p ++ [0x1b, 0x1b, 0x1b] := by
  have hok := adjOf_ok msg a bs hm
  have hfl : pre.flatten ++ suf.flatten = msg := by
    have := cuts_flatten msg hok (msg.length + 1) 0 (by omega)
    rw [hcs, List.flatten_append] at this
    simpa using this
  obtain ⟨e1, e2⟩ := take_of_append _ _ _ hfl
  cases a with
  | a8Bit => exact hsp.elim
  | a7Bit =>
    obtain ⟨b, _, _, h3, h4⟩ := cuts_boundary (Q := fun _ => True) msg hok (fun _ _ => trivial) _ 0 (by omega) trivial pre suf hcs hp hs
    simp only [minBlock, roundBlock, adjOf] at *
    rw [Nat.zero_add] at h4
    have hsp' : EscapePending pre.flatten := hsp
    rw [← e1, h4] at hsp'
    obtain ⟨z, _, _, _, h⟩ := adj7_pending msg _ (by omega) (by omega) hsp'
    rw [← h4, e1] at h
    exact ⟨by simp, _, h⟩
  | reserved =>
    obtain ⟨b, _, _, h3, h4⟩ := cuts_boundary (Q := fun _ => True) msg hok (fun _ _ => trivial) _ 0 (by omega) trivial pre suf hcs hp hs
    simp only [minBlock, roundBlock, adjOf] at *
    rw [Nat.zero_add] at h4
    have hsp' : EscapePending pre.flatten := hsp
    rw [← e1, h4] at hsp'
    obtain ⟨z, _, _, _, h⟩ := adj7_pending msg _ (by omega) (by omega) hsp'
    rw [← h4, e1] at h
    exact ⟨by simp, _, h⟩
  | ucs2 => exact absurd hsp (cuts_not_split msg .ucs2 bs hm (fun h => absurd rfl h) pre suf hcs hp hs)

/-! ### 7-bit -/

theorem pieces_decode (d : Gsm7.Decoder) (cs : List Bytes)
    (h : ∀ pre suf, cs = pre ++ suf → pre ≠ [] → suf ≠ [] → ¬ EscapePending pre.flatten) :
    d.Decode cs.flatten = (do let xs ← cs.mapM d.Decode; return xs.flatten) := by
  induction cs with
  | nil => rw [decoder_decode_eq]; rfl
  | cons c cs ih =>
    rw [List.mapM_cons, List.flatten_cons]
    by_cases hcs : cs = []
    · subst hcs
      simp only [List.flatten_nil, List.append_nil, List.mapM_nil, pure_bind]
      cases hd : d.Decode c with
      | ok x => simp [pure, Except.pure]
      | error f => rfl
    · have h1 := h [c] cs rfl (by simp) hcs
      simp only [List.flatten_cons, List.flatten_nil, List.append_nil] at h1
      have he : escAfter c false = false := by rw [escAfter_run]; exact decide_eq_false h1
      have hrest : d.Decode cs.flatten = (do let xs ← cs.mapM d.Decode; return xs.flatten) := by
        apply ih
        intro pre suf e hp hs hpend
        refine h (c :: pre) suf (by simp [e]) (by simp) hs ?_
        rw [List.flatten_cons]
        have e1 := escAfter_run (c ++ pre.flatten)
        rw [escAfter_append, he] at e1
        have e2 := escAfter_run pre.flatten
        rw [e2] at e1
        have := decide_eq_true (p := (pre.flatten.reverse.takeWhile (· == Gsm7.esc)).length % 2 = 1) hpend
        rw [this] at e1
        exact of_decide_eq_true e1.symm
      rw [decoder_decode_eq, decoder_loop_append d c cs.flatten false he, ← decoder_decode_eq, ← decoder_decode_eq, hrest]
      cases hd : d.Decode c with
      | ok x =>
        simp only [ok_bind]
        cases cs.mapM d.Decode with
        | ok xs => rfl
        | error f => rfl
      | error f => rfl

theorem noTriple_of_noDouble (g : Bytes) (h : ∀ i : Nat, ¬ (g[i]? = some 0x1b ∧ g[i + 1]? = some 0x1b)) : NoTripleEsc g :=
  fun i hi => h i ⟨hi.1, hi.2.1⟩

/-- Text without U+001B is encoded without adjacent escapes. -/
theorem encode_noDouble (e : Gsm7.Encoder) (ds dx : Charset.Decoder) (hs : TablesOk e.set ds)
    (hx : TablesOk e.ext dx) (us : List Nat) (g : Bytes) (h : e.loop us = .ok g) (hesc : 0x1b ∉ us) :
    ∀ i : Nat, ¬ (g[i]? = some 0x1b ∧ g[i + 1]? = some 0x1b) := by
  have single : ∀ (c : UInt8) (r : Bytes), c ≠ 0x1b → (∀ i : Nat, ¬ (r[i]? = some 0x1b ∧ r[i + 1]? = some 0x1b)) →
      ∀ i : Nat, ¬ ((c :: r)[i]? = some 0x1b ∧ (c :: r)[i + 1]? = some 0x1b) := by
    intro c r hc hr i hi
    cases i with
    | zero => simp at hi; exact hc hi.1
    | succ i => exact hr i hi
  induction us generalizing g with
  | nil => cases h; simp
  | cons u us ih =>
    have hu : u ≠ 0x1b := fun h => hesc (by simp [h])
    have hus : 0x1b ∉ us := fun h => hesc (by simp [h])
    unfold Gsm7.Encoder.loop at h
    split at h
    · rename_i c hc
      obtain ⟨r, hr, h⟩ := bind_eq_ok.mp h
      cases h
      have hd := (hs.sect _ _ hc).1
      have hne : c ≠ 0x1b := fun h => hu ((hs.esc _ _ hd).mp h)
      exact single c r hne (ih r hr hus)
    · split at h
      · rename_i c hc
        obtain ⟨r, hr, h⟩ := bind_eq_ok.mp h
        cases h
        have hd := (hx.sect _ _ hc).1
        have hne : c ≠ 0x1b := fun h => hu ((hx.esc _ _ hd).mp h)
        have := single c r hne (ih r hr hus)
        intro i hi
        cases i with
        | zero => simp at hi; exact hne hi.2
        | succ i => exact this i hi
      · cases h

/-! ### UCS-2 -/

theorem encode_rune (r : Nat) : (∃ a b, Ucs2.Encode [r] = [a, b] ∧ ¬ Surrogate (256 * a.toNat + b.toNat)) ∨
    ∃ a b c d, Ucs2.Encode [r] = [a, b, c, d] ∧ HighSurrogate (256 * a.toNat + b.toNat) ∧ LowSurrogate (256 * c.toNat + d.toNat) := by
  have key : ∀ u, u < 65536 → 256 * (UInt8.ofNat (u / 256)).toNat + (UInt8.ofNat (u % 256)).toNat = u := by
    intro u hu
    rw [UInt8.toNat_ofNat', UInt8.toNat_ofNat']; omega
  simp only [Ucs2.Encode, List.flatMap_cons, List.flatMap_nil, List.append_nil, Unicode.utf16EncodeRune]
  split
  · left
    refine ⟨_, _, rfl, ?_⟩
    rw [key _ (by omega)]; unfold Surrogate; omega
  · split
    · right
      refine ⟨_, _, _, _, rfl, ?_, ?_⟩
      · rw [key _ (by omega)]; unfold HighSurrogate; omega
      · rw [key _ (by omega)]; unfold LowSurrogate; omega
    · left
      refine ⟨_, _, rfl, ?_⟩
      rw [key _ (by decide)]; unfold Surrogate; decide

theorem encode_cons (r : Nat) (rs : List Nat) : Ucs2.Encode (r :: rs) = Ucs2.Encode [r] ++ Ucs2.Encode rs := by
  simp [Ucs2.Encode]

theorem splits_append (c x y : Bytes) (hc : c.length % 2 = 0) (h : SplitsChar .ucs2 x y) : SplitsChar .ucs2 (c ++ x) y := by
  rcases h with h | ⟨h, l, h1, h2, h3, h4⟩
  · left; rw [List.length_append]; omega
  · right
    refine ⟨h, l, ?_, h2, h3, h4⟩
    rw [units_append c x hc, List.getLast?_append, h1]; rfl

theorem encode_split (rs : List Nat) : ∀ x y : Bytes, Ucs2.Encode rs = x ++ y → ¬ SplitsChar .ucs2 x y →
    ∃ r1 r2, rs = r1 ++ r2 ∧ x = Ucs2.Encode r1 ∧ y = Ucs2.Encode r2 := by
  induction rs with
  | nil =>
    intro x y h _
    have h' : x ++ y = [] := h.symm
    simp only [List.append_eq_nil_iff] at h'
    exact ⟨[], [], rfl, h'.1, h'.2⟩
  | cons r rs ih =>
    intro x y h hn
    cases x with
    | nil => exact ⟨[], r :: rs, rfl, rfl, h.symm⟩
    | cons x0 x =>
      rw [encode_cons] at h
      cases x with
      | nil => exact absurd (.inl (by simp)) hn
      | cons x1 x =>
        rcases encode_rune r with ⟨a, b, e, _⟩ | ⟨a, b, c, d, e, hh, hl⟩
        · rw [e] at h
          simp only [List.cons_append, List.nil_append, List.cons.injEq] at h
          obtain ⟨rfl, rfl, h⟩ := h
          obtain ⟨r1, r2, h1, h2, h3⟩ := ih x y h (fun hs => hn (splits_append [a, b] x y (by simp) hs))
          exact ⟨r :: r1, r2, by simp [h1], by rw [encode_cons, e, h2]; rfl, h3⟩
        · rw [e] at h
          simp only [List.cons_append, List.nil_append, List.cons.injEq] at h
          obtain ⟨rfl, rfl, h⟩ := h
          cases x with
          | nil =>
            exfalso
            apply hn
            rw [List.nil_append] at h
            right
            exact ⟨_, _, by simp [units], by rw [← h]; rfl, hh, hl⟩
          | cons x2 x =>
            cases x with
            | nil => exact absurd (.inl (by simp)) hn
            | cons x3 x =>
              simp only [List.cons_append, List.cons.injEq] at h
              obtain ⟨rfl, rfl, h⟩ := h
              obtain ⟨r1, r2, h1, h2, h3⟩ := ih x y h (fun hs => hn (splits_append [a, b, c, d] x y (by simp) hs))
              exact ⟨r :: r1, r2, by simp [h1], by rw [encode_cons, e, h2]; rfl, h3⟩

theorem encode_even (rs : List Nat) : (Ucs2.Encode rs).length % 2 = 0 := by
  unfold Ucs2.Encode; rw [putBE16_length]; omega

theorem pieces_encode (cs : List Bytes) : ∀ rs, Ucs2.Encode rs = cs.flatten →
    (∀ pre suf, cs = pre ++ suf → pre ≠ [] → suf ≠ [] → ¬ SplitsChar .ucs2 pre.flatten suf.flatten) →
    ∃ rss : List (List Nat), rss.flatten = rs ∧ cs = rss.map Ucs2.Encode := by
  induction cs with
  | nil =>
    intro rs h _
    cases rs with
    | nil => exact ⟨[], rfl, rfl⟩
    | cons r rs =>
      exfalso
      rw [encode_cons] at h
      rcases encode_rune r with ⟨a, b, e, _⟩ | ⟨a, b, c, d, e, _, _⟩ <;> rw [e] at h <;> simp at h
  | cons c cs ih =>
    intro rs h hn
    by_cases hcs : cs = []
    · subst hcs
      exact ⟨[rs], by simp, by simpa using h.symm⟩
    · rw [List.flatten_cons] at h
      obtain ⟨r1, r2, h1, h2, h3⟩ := encode_split rs _ _ h (by simpa using hn [c] cs rfl (by simp) hcs)
      obtain ⟨rss, hr⟩ := ih r2 h3.symm (fun pre suf e hp hs hsp => hn (c :: pre) suf (by simp [e]) (by simp) hs (by
        rw [List.flatten_cons]
        exact splits_append c _ _ (by rw [h2]; exact encode_even r1) hsp))
      exact ⟨r1 :: rss, by simp [hr.1, h1], by simp [h2, hr.2]⟩

theorem paired_encode (rs : List Nat) : Paired (units (Ucs2.Encode rs)) := by
  induction rs with
  | nil => intro i h hi; simp [Ucs2.Encode, units] at hi
  | cons r rs ih =>
    rw [encode_cons]
    rcases encode_rune r with ⟨a, b, e, hns⟩ | ⟨a, b, c, d, e, hh, hl⟩
    · rw [e]
      intro i h hi hh
      simp only [List.cons_append, List.nil_append, units] at *
      cases i with
      | zero =>
        simp only [List.getElem?_cons_zero, Option.some.injEq] at hi
        exfalso; apply hns; rw [hi]; unfold HighSurrogate at hh; unfold Surrogate; omega
      | succ i =>
        simp only [List.getElem?_cons_succ] at *
        exact ih i h hi hh
    · rw [e]
      intro i h hi hh'
      simp only [List.cons_append, List.nil_append, units] at *
      cases i with
      | zero => exact ⟨_, rfl, hl⟩
      | succ i =>
        cases i with
        | zero =>
          simp only [Nat.zero_add, List.getElem?_cons_succ, List.getElem?_cons_zero, Option.some.injEq] at hi
          exfalso; rw [hi] at hl; unfold HighSurrogate at hh'; unfold LowSurrogate at hl; omega
        | succ i =>
          simp only [List.getElem?_cons_succ] at *
          exact ih i h hi hh'

end Verif.Proofs
