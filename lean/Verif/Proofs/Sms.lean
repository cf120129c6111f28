import Verif.Model.Sms
import Verif.Proofs.Ucs2
import Verif.Proofs.Gsm7
import Verif.Spec.Sms

/-! Helper lemmas about `sms.Decode`. -/

namespace Verif.Proofs.Sms
open Verif.Model Verif.Spec Verif.Proofs

/-- The bytes left over by `Ucs2.Decode`, as carried from one segment to the next by `sms.Decode`. -/
def left (d : Ucs2.DecodeResult) : Bytes :=
  match d.err with
  | some (.ucs2Dangling e) => e
  | _ => []

theorem ucs2_loop_append (a b : Bytes) (ha : a.length % 2 = 0) :
    ((Ucs2.decodeLoop a).err = none ∧
      Ucs2.decodeLoop (a ++ b) = ⟨(Ucs2.decodeLoop a).runes ++ (Ucs2.decodeLoop b).runes, (Ucs2.decodeLoop b).err⟩) ∨
    (∃ h l, (Ucs2.decodeLoop a).err = some (.ucs2Dangling [h, l]) ∧ Unicode.isSurrogate (Ucs2.be16 h l) ∧
      Ucs2.decodeLoop (a ++ b) = ⟨(Ucs2.decodeLoop a).runes ++ (Ucs2.decodeLoop ([h, l] ++ b)).runes,
        (Ucs2.decodeLoop ([h, l] ++ b)).err⟩) := by
  fun_induction Ucs2.decodeLoop a with
  | case1 h l r hs h2 l2 rest2 d ih =>
    have := ih (by simp at ha; omega)
    have e : Ucs2.decodeLoop (h :: l :: h2 :: l2 :: rest2 ++ b) =
        ⟨Unicode.utf16DecodeRune r (Ucs2.be16 h2 l2) :: (Ucs2.decodeLoop (rest2 ++ b)).runes,
          (Ucs2.decodeLoop (rest2 ++ b)).err⟩ := by
      simp only [List.cons_append]
      rw [Ucs2.decodeLoop, if_pos hs]
    rcases this with ⟨h1, h2⟩ | ⟨x, y, h1, hxy, h2⟩
    · left; exact ⟨h1, by rw [e, h2]; simp [d]⟩
    · right; exact ⟨x, y, h1, hxy, by rw [e, h2]; simp [d]⟩
  | case2 h l r hs rest hne =>
    have : rest = [] := by
      match rest, hne, ha with
      | [], _, _ => rfl
      | [x], _, ha => simp at ha
      | x :: y :: t, hne, _ => exact absurd rfl (hne x y t)
    subst this
    right
    exact ⟨h, l, rfl, hs, by simp⟩
  | case3 h l rest r hs d ih =>
    have := ih (by simp at ha; omega)
    have e : Ucs2.decodeLoop (h :: l :: rest ++ b) =
        ⟨r :: (Ucs2.decodeLoop (rest ++ b)).runes, (Ucs2.decodeLoop (rest ++ b)).err⟩ := by
      simp only [List.cons_append]
      rw [Ucs2.decodeLoop.eq_def]; simp only []; rw [if_neg hs]
    rcases this with ⟨h1, h2⟩ | ⟨x, y, h1, hxy, h2⟩
    · left; exact ⟨h1, by rw [e, h2]; simp [d]⟩
    · right; exact ⟨x, y, h1, hxy, by rw [e, h2]; simp [d]⟩
  | case4 t hne =>
    left
    match t, hne, ha with
    | [], _, _ => simp
    | [x], _, ha => simp at ha
    | x :: y :: t, hne, _ => exact absurd rfl (hne x y t)

theorem decode_even (a : Bytes) (ha : a.length % 2 = 0) : Ucs2.Decode a = Ucs2.decodeLoop a := by
  unfold Ucs2.Decode
  split
  · rename_i h
    rw [List.length_eq_zero_iff.mp h]; rfl
  · rw [if_neg (by omega)]

/-- A pending surrogate: what `danglingSurrogate` can hold. -/
def Pend (d : Bytes) : Prop := d = [] ∨ ∃ h l, d = [h, l] ∧ Unicode.isSurrogate (Ucs2.be16 h l) = true

theorem Pend.even {d : Bytes} (h : Pend d) : d.length % 2 = 0 := by
  rcases h with rfl | ⟨_, _, rfl, _⟩ <;> simp

theorem decode_append (a b : Bytes) (ha : a.length % 2 = 0) (hb : b.length % 2 = 0) :
    Pend (left (Ucs2.Decode a)) ∧
    ((Ucs2.Decode a).err = none ∧ left (Ucs2.Decode a) = [] ∨
      (Ucs2.Decode a).err = some (.ucs2Dangling (left (Ucs2.Decode a))) ∧ left (Ucs2.Decode a) ≠ []) ∧
    Ucs2.Decode (a ++ b) = ⟨(Ucs2.Decode a).runes ++ (Ucs2.Decode (left (Ucs2.Decode a) ++ b)).runes,
      (Ucs2.Decode (left (Ucs2.Decode a) ++ b)).err⟩ := by
  rw [decode_even a ha, decode_even (a ++ b) (by simp; omega)]
  rcases ucs2_loop_append a b ha with ⟨h1, h2⟩ | ⟨h, l, h1, hs, h2⟩
  · have : left (Ucs2.decodeLoop a) = [] := by unfold left; rw [h1]
    rw [this, List.nil_append, decode_even b hb]
    exact ⟨.inl rfl, .inl ⟨h1, rfl⟩, h2⟩
  · have : left (Ucs2.decodeLoop a) = [h, l] := by unfold left; rw [h1]
    rw [this, decode_even ([h, l] ++ b) (by simp; omega)]
    exact ⟨.inr ⟨h, l, rfl, hs⟩, .inr ⟨h1, by simp⟩, h2⟩

theorem decode_pend {d : Bytes} (h : Pend d) :
    Ucs2.Decode d = ⟨[], if d ≠ [] then some (.ucs2Dangling d) else none⟩ := by
  rcases h with rfl | ⟨h, l, rfl, hs⟩
  · rfl
  · rw [decode_even _ (by simp), Ucs2.decodeLoop.eq_def]; simp only []; rw [if_pos hs]; rfl

theorem utf8_append (a b : List Nat) :
    Unicode.encodeRunes (a ++ b) = Unicode.encodeRunes a ++ Unicode.encodeRunes b := by
  simp [Unicode.encodeRunes]

theorem ite_nil (d u : Bytes) : (if d ≠ [] then d ++ u else u) = d ++ u := by
  by_cases h : d = []
  · simp [h]
  · rw [if_pos h]

/-- One step of the loop on a UCS-2 segment of even length. -/
theorem decodeLoop_ucs2 (opts : List CharsetOpt) (s : TPDU) (ss : List TPDU) (d : Bytes) (hd : Pend d)
    (ha : s.Alphabet.1 = .ucs2) (he : s.UD.length % 2 = 0) :
    Model.Sms.decodeLoop opts (s :: ss) d = (do
      let rest ← Model.Sms.decodeLoop opts ss (left (Ucs2.Decode (d ++ s.UD)))
      return Unicode.encodeRunes (Ucs2.Decode (d ++ s.UD)).runes ++ rest) := by
  have hev : (d ++ s.UD).length % 2 = 0 := by have := hd.even; simp; omega
  obtain ⟨_, h, _⟩ := decode_append (d ++ s.UD) [] hev rfl
  rw [Model.Sms.decodeLoop]
  simp only [ha, ite_nil, DecodeUserData]
  rcases h with ⟨h1, h2⟩ | ⟨h1, h2⟩
  · rw [h1, h2]
  · rw [h1]

/-- The loop on UCS-2 segments of even length decodes the concatenation. -/
theorem decodeLoop_all_ucs2 (opts : List CharsetOpt) (segs : List TPDU)
    (h : ∀ s ∈ segs, s.Alphabet.1 = .ucs2 ∧ s.UD.length % 2 = 0) (d : Bytes) (hd : Pend d) :
    Model.Sms.decodeLoop opts segs d =
      match (Ucs2.Decode (d ++ (segs.map TPDU.UD).flatten)).err with
      | none => .ok (Unicode.encodeRunes (Ucs2.Decode (d ++ (segs.map TPDU.UD).flatten)).runes)
      | some e => fail e := by
  induction segs generalizing d with
  | nil =>
    simp only [List.map_nil, List.flatten_nil, List.append_nil, Model.Sms.decodeLoop, decode_pend hd]
    by_cases h0 : d = []
    · simp [h0]; rfl
    · rw [if_pos h0]; simp [h0]
  | cons s ss ih =>
    obtain ⟨ha, he⟩ := h s (by simp)
    have hss : ∀ s ∈ ss, s.Alphabet.1 = .ucs2 ∧ s.UD.length % 2 = 0 := fun x hx => h x (by simp [hx])
    have hev : (d ++ s.UD).length % 2 = 0 := by have := hd.even; simp; omega
    have hfl : ((ss.map TPDU.UD).flatten).length % 2 = 0 := by
      clear ih h
      induction ss with
      | nil => rfl
      | cons x xs ih =>
        have h1 := (hss x (by simp)).2
        have h2 := ih (fun y hy => hss y (by simp [hy]))
        simp only [List.map_cons, List.flatten_cons, List.length_append]; omega
    obtain ⟨hp, _, hap⟩ := decode_append (d ++ s.UD) (ss.map TPDU.UD).flatten hev hfl
    rw [decodeLoop_ucs2 opts s ss d hd ha he, ih hss _ hp]
    simp only [List.map_cons, List.flatten_cons, ← List.append_assoc]
    rw [hap]
    cases (Ucs2.Decode (left (Ucs2.Decode (d ++ s.UD)) ++ (ss.map TPDU.UD).flatten)).err with
    | none => simp only [utf8_append]; rfl
    | some e => rfl

/-- Decoding of 7-bit user data, with the languages announced by the header and permitted by the options. -/
theorem decodeUserData_7bit (ud : Bytes) (udh : UDH) (alpha : Alphabet) (opts : List CharsetOpt)
    (h1 : alpha ≠ .ucs2) (h2 : alpha ≠ .a8Bit) :
    ∃ t, DecodeUserData ud udh alpha opts = ⟨t, none⟩ ∧
      Gsm7.Decoder.Decode
        ⟨Charset.NewDecoder ((nliOf udh lockingIEI (opts.foldl applyDecodeOption {}).locking).getD 0),
         Charset.NewExtDecoder ((nliOf udh shiftIEI (opts.foldl applyDecodeOption {}).shift).getD 0), false⟩ ud = .ok t := by
  have key : DecodeUserData ud udh alpha opts =
      (match Gsm7.Decoder.Decode
        ⟨Charset.NewDecoder ((nliOf udh lockingIEI (opts.foldl applyDecodeOption {}).locking).getD 0),
         Charset.NewExtDecoder ((nliOf udh shiftIEI (opts.foldl applyDecodeOption {}).shift).getD 0), false⟩ ud with
      | .ok t => ⟨t, none⟩
      | .error (.err e) => ⟨[], some e⟩
      | .error (.panic _) => ⟨[], none⟩) := by
    unfold DecodeUserData
    cases alpha with
    | ucs2 => exact absurd rfl h1
    | a8Bit => exact absurd rfl h2
    | a7Bit =>
      simp only [Gsm7.Decode]
      cases nliOf udh lockingIEI (opts.foldl applyDecodeOption {}).locking <;>
        cases nliOf udh shiftIEI (opts.foldl applyDecodeOption {}).shift <;> rfl
    | reserved =>
      simp only [Gsm7.Decode]
      cases nliOf udh lockingIEI (opts.foldl applyDecodeOption {}).locking <;>
        cases nliOf udh shiftIEI (opts.foldl applyDecodeOption {}).shift <;> rfl
  obtain ⟨rs, hrs, _⟩ := decoder_loop_total
    ⟨Charset.NewDecoder ((nliOf udh lockingIEI (opts.foldl applyDecodeOption {}).locking).getD 0),
     Charset.NewExtDecoder ((nliOf udh shiftIEI (opts.foldl applyDecodeOption {}).shift).getD 0), false⟩ rfl ud false
  rw [← decoder_decode_eq] at hrs
  rw [hrs] at key
  exact ⟨_, key, hrs⟩

theorem decodeUserData_no_err (ud : Bytes) (udh : UDH) (alpha : Alphabet) (opts : List CharsetOpt)
    (h1 : alpha ≠ .ucs2) : (DecodeUserData ud udh alpha opts).err = none := by
  by_cases h2 : alpha = .a8Bit
  · subst h2; rfl
  · obtain ⟨t, h, _⟩ := decodeUserData_7bit ud udh alpha opts h1 h2
    rw [h]

/-- Accumulating form of `pendingUcs2`. -/
def pendingFrom (acc : Bytes) (segs : List TPDU) : Bytes :=
  segs.foldl (fun acc s => if s.Alphabet.1 = .ucs2 then acc ++ s.UD else []) acc

theorem pendingFrom_eq (segs : List TPDU) : pendingFrom [] segs = pendingUcs2 segs := by
  have key : ∀ l : List TPDU, pendingFrom [] l.reverse = pendingUcs2 l.reverse := by
    intro l
    induction l with
    | nil => rfl
    | cons s l ih =>
      unfold pendingFrom pendingUcs2 at *
      rw [List.reverse_cons, List.foldl_append, ih]
      simp only [List.foldl_cons, List.foldl_nil, List.reverse_append, List.reverse_reverse, List.reverse_cons,
        List.reverse_nil, List.nil_append, List.cons_append, List.takeWhile_cons]
      by_cases h : s.Alphabet.1 = .ucs2
      · simp [h]
      · simp [h]
  have := key segs.reverse
  simpa using this

theorem decode_odd (a : Bytes) (h : a.length % 2 = 1) : Ucs2.Decode a = ⟨[], some .ucs2InvalidLength⟩ := by
  unfold Ucs2.Decode
  rw [if_neg (by omega), if_pos h]

theorem decodeLoop_outcome (opts : List CharsetOpt) (segs : List TPDU) (acc : Bytes) (hacc : acc.length % 2 = 0) :
    ((∃ s ∈ segs, s.Alphabet.1 = .ucs2 ∧ s.UD.length % 2 = 1) ∧
      Model.Sms.decodeLoop opts segs (left (Ucs2.Decode acc)) = fail .ucs2InvalidLength) ∨
    ((∀ s ∈ segs, s.Alphabet.1 = .ucs2 → s.UD.length % 2 = 0) ∧ (pendingFrom acc segs).length % 2 = 0 ∧
      (((Ucs2.Decode (pendingFrom acc segs)).err = none ∧
        ∃ t, Model.Sms.decodeLoop opts segs (left (Ucs2.Decode acc)) = .ok t) ∨
       (∃ e, (Ucs2.Decode (pendingFrom acc segs)).err = some e ∧
        Model.Sms.decodeLoop opts segs (left (Ucs2.Decode acc)) = fail e))) := by
  induction segs generalizing acc with
  | nil =>
    right
    refine ⟨(by simp), hacc, ?_⟩
    obtain ⟨_, h, _⟩ := decode_append acc [] hacc rfl
    simp only [pendingFrom, List.foldl_nil, Model.Sms.decodeLoop]
    rcases h with ⟨h1, h2⟩ | ⟨h1, h2⟩
    · left; exact ⟨h1, [], by rw [h2]; rfl⟩
    · right; exact ⟨_, h1, by rw [if_pos h2]⟩
  | cons s ss ih =>
    by_cases ha : s.Alphabet.1 = .ucs2
    · by_cases hodd : s.UD.length % 2 = 1
      · left
        refine ⟨⟨s, by simp, ha, hodd⟩, ?_⟩
        obtain ⟨hp, _⟩ := decode_append acc [] hacc rfl
        rw [Model.Sms.decodeLoop]
        simp only [ha, ite_nil, DecodeUserData]
        rw [decode_odd _ (by have := hp.even; simp; omega)]
      · have he : s.UD.length % 2 = 0 := by omega
        obtain ⟨hp, _, hap⟩ := decode_append acc s.UD hacc he
        have hl : left (Ucs2.Decode (left (Ucs2.Decode acc) ++ s.UD)) = left (Ucs2.Decode (acc ++ s.UD)) := by
          rw [hap]; rfl
        have hpf : pendingFrom acc (s :: ss) = pendingFrom (acc ++ s.UD) ss := by
          simp [pendingFrom, ha]
        rw [decodeLoop_ucs2 opts s ss _ hp ha he, hl, hpf]
        rcases ih (acc ++ s.UD) (by simp; omega) with ⟨⟨x, hx, h1⟩, h2⟩ | ⟨h1, h2, h3⟩
        · left
          exact ⟨⟨x, by simp [hx], h1⟩, by rw [h2]; rfl⟩
        · right
          refine ⟨?_, h2, ?_⟩
          · intro x hx hxa
            rcases List.mem_cons.mp hx with rfl | hx
            · exact he
            · exact h1 x hx hxa
          · rcases h3 with ⟨h3, t, h4⟩ | ⟨e, h3, h4⟩
            · left; rw [h4]; exact ⟨h3, _, rfl⟩
            · right; rw [h4]; exact ⟨e, h3, rfl⟩
    · have hpf : pendingFrom acc (s :: ss) = pendingFrom [] ss := by
        simp [pendingFrom, ha]
      rw [hpf, Model.Sms.decodeLoop]
      simp only [decodeUserData_no_err _ _ _ _ ha]
      have ih0 := ih [] rfl
      rw [show left (Ucs2.Decode []) = [] from rfl] at ih0
      rcases ih0 with ⟨⟨x, hx, h1⟩, h2⟩ | ⟨h1, h2, h3⟩
      · left
        exact ⟨⟨x, by simp [hx], h1⟩, by rw [h2]; rfl⟩
      · right
        refine ⟨?_, h2, ?_⟩
        · intro x hx hxa
          rcases List.mem_cons.mp hx with rfl | hx
          · exact absurd hxa ha
          · exact h1 x hx hxa
        · rcases h3 with ⟨h3, t, h4⟩ | ⟨e, h3, h4⟩
          · left; rw [h4]; exact ⟨h3, _, rfl⟩
          · right; rw [h4]; exact ⟨e, h3, rfl⟩

theorem completeLoop_iff (n r : Nat) (ss : List TPDU) (i : Nat) :
    Model.Sms.completeLoop n r ss i = true ↔
      ∀ (k : Nat) (s : TPDU), ss[k]? = some s → s.ConcatInfo = some ⟨n, i + k + 1, r⟩ := by
  induction ss generalizing i with
  | nil => simp [Model.Sms.completeLoop]
  | cons s ss ih =>
    rw [Model.Sms.completeLoop]
    have hd : ∀ x : Prop, (∀ (k : Nat) (t : TPDU), (s :: ss)[k]? = some t → t.ConcatInfo = some ⟨n, i + k + 1, r⟩) ↔
        (s.ConcatInfo = some ⟨n, i + 1, r⟩ ∧
          ∀ (k : Nat) (t : TPDU), ss[k]? = some t → t.ConcatInfo = some ⟨n, i + 1 + k + 1, r⟩) := by
      intro _
      constructor
      · intro h
        refine ⟨h 0 s rfl, fun k t ht => ?_⟩
        have := h (k + 1) t (by simpa using ht)
        rw [this]; congr 2; omega
      · rintro ⟨h1, h2⟩ k t ht
        cases k with
        | zero => simp at ht; subst ht; exact h1
        | succ k =>
          rw [h2 k t (by simpa using ht)]; congr 2; omega
    rw [hd True, ← ih]
    cases hc : s.ConcatInfo with
    | none => simp
    | some c =>
      obtain ⟨a, b, d⟩ := c
      simp only
      by_cases h1 : a = n
      · by_cases h2 : d = r
        · by_cases h3 : b = i + 1
          · simp [h1, h2, h3]
          · simp [h1, h2, h3]
        · simp [h1, h2]
      · simp [h1]

end Verif.Proofs.Sms
