import Verif.Props.Texts
import Verif.Props.WireExact
import Verif.Props.Counter

/-! C38, C59: what comes back of any text, and exactly which texts come back as they are. -/

namespace Verif.Props

open Verif.Model Verif.Model.Collector Verif.Spec Verif.Proofs Verif.Proofs.Coll
open Verif.Spec.Reassembly (Parts Input Result)

theorem auto_decodes (e : Model.Sms.Encoder) (text : List UInt8) (options : List Model.Sms.EncoderOption)
    (dopts : List CharsetOpt) (a : Alphabet)
    (hst : (callTemplate e options).SmsType ∈ smsTypes) (hu : hdrLen (callTemplate e options).UDH ≤ 121)
    (halpha : (callTemplate e options).Alphabet.1 = .a7Bit)
    (ha : Chosen (callTemplate e options).DCS (callCharsets e options) text a)
    (hcarry : CanCarry (group (callTemplate e options).DCS) a) :
    ∃ r out, e.Encode text options = .ok r ∧ Sms.Decode r.pdus dopts = .ok out ∧ Utf8 out ∧ (a = .a7Bit → 0x1b ∉ out) ∧
      (a = .ucs2 → out = Unicode.encodeRunes (Unicode.decodeRunes text)) ∧ (text ≠ [] → r.pdus ≠ []) := by
  have hEa : (EncodeUserData text (callCharsets e options)).2.2 = a := by
    have hal : (DCS.Alphabet (callTemplate e options).DCS).1 = .a7Bit := halpha
    cases ha with
    | octets h => rw [h] at hal; cases hal
    | ucs2 h => rw [h] at hal; cases hal
    | septets h hs =>
      rcases C40_alphabet text (callCharsets e options) with ⟨hh, _⟩ | ⟨_, hh⟩
      · exact hh
      · exact absurd hs hh
    | fallback h hs =>
      rcases C40_alphabet text (callCharsets e options) with ⟨_, hh⟩ | ⟨hh, _⟩
      · exact absurd hh hs
      · exact hh
  obtain ⟨dcs, hdcs, henc⟩ := encode_auto e text options halpha (by rw [show (List.foldl _ e options).eopts = callCharsets e options from rfl, hEa]; exact hcarry)
  have h1 : (options.foldl Model.Sms.Encoder.apply e).pdu = callTemplate e options := rfl
  have h2 : (options.foldl Model.Sms.Encoder.apply e).eopts = callCharsets e options := rfl
  rw [h1, h2] at henc
  rw [h2] at hdcs
  rcases auto_cases text (callCharsets e options) with ⟨L, d, hd, hg, _⟩ | ⟨hd, hs⟩
  · rw [hd] at henc hdcs hEa
    simp only at henc hdcs hEa
    have hroom := autoTemplate_room (callTemplate e options) dcs L e hst hu
    obtain ⟨res, hr, hcont, hforms⟩ := segment_forms _ d (encCfg e) rfl hroom
    have he : e.Encode text options = .ok ⟨res.pdus, res.mr.getD e.MsgCount, res.cr.getD e.ConcatRef⟩ := by rw [henc, hr]; rfl
    have hall := auto_alphabets e text options a hst hu halpha ha hcarry _ he
    obtain ⟨out, ho⟩ := C46_no_ucs2 res.pdus dopts (fun p hp => by rw [hall p hp, ← hEa]; simp)
    refine ⟨_, out, he, ho, C79_utf8 _ _ _ (fun p hp => by rw [hall p hp, ← hEa]; simp) ho, ?_, ?_, ?_⟩
    · rintro rfl
      exact C38_no_escape _ _ _ hall ho
    · rintro rfl
      cases hEa
    · intro hne h0
      obtain ⟨_, sh, _, hlen⟩ := C10_output _ _ text d hg
      have h0 : res.pdus = [] := h0
      rw [h0] at hcont
      have := List.length_pos_iff.2 (decodeRunes_ne text hne)
      rw [← show [] = d from hcont] at hlen
      simp only [List.length_nil] at hlen
      omega
  · rw [hd] at henc hdcs hEa
    simp only at henc hdcs hEa
    have hroom := autoTemplate_room (callTemplate e options) dcs .default e hst hu
    have halU : (autoTemplate (callTemplate e options) dcs Lang.default.header).Alphabet.1 = .ucs2 := by
      rw [autoTemplate_alphabet, hdcs]
    obtain ⟨res, rss, hr, hrs, hmap, _⟩ := C34_ucs2 _ (Unicode.decodeRunes text) (encCfg e) hroom halU
    obtain ⟨res', hr', hcont, hforms⟩ := segment_forms _ (Ucs2.Encode (Unicode.decodeRunes text)) (encCfg e) rfl hroom
    rw [hr] at hr'; cases hr'
    have hall : ∀ s ∈ res.pdus, s.Alphabet.1 = .ucs2 ∧ s.UD.length % 2 = 0 := by
      intro p hp
      have hud : p.UD ∈ rss.map Ucs2.Encode := by rw [← hmap]; exact List.mem_map_of_mem hp
      obtain ⟨x, _, hx⟩ := List.mem_map.mp hud
      obtain ⟨⟨fo, pi, mr, udh, ud, e1, _⟩, _⟩ := hforms p hp
      refine ⟨?_, ?_⟩
      · rw [e1]; exact halU
      · rw [← hx]; unfold Ucs2.Encode; rw [putBE16_length]; omega
    have hl := Sms.decodeLoop_all_ucs2 (Model.Sms.decodeOpts dopts) res.pdus hall [] (.inl rfl)
    have hsc : ∀ r ∈ Unicode.decodeRunes text, Scalar r := fun r hr => (isScalar_iff r).1 (decodeRunes_scalar text r hr)
    have hdec : Sms.Decode res.pdus dopts = .ok (Unicode.encodeRunes (Unicode.decodeRunes text)) := by
      unfold Model.Sms.Decode
      rw [hl, List.nil_append, show (res.pdus.map TPDU.UD).flatten = content res.pdus from rfl, hcont, ucs2_roundtrip _ hsc]
    refine ⟨⟨res.pdus, res.mr.getD e.MsgCount, res.cr.getD e.ConcatRef⟩, _, by rw [henc, hr]; rfl, hdec,
      encodeRunes_utf8 _, ?_, fun _ => rfl, ?_⟩
    · rintro rfl
      cases hEa
    · intro hne h0
      have h0 : res.pdus = [] := h0
      rw [h0] at hcont
      exact ucs2_encode_ne _ (decodeRunes_ne text hne) hcont.symm

/-- C38, for any octets: what is sent in UCS-2 comes back as the same runes, with U+FFFD for what is not UTF-8. -/
theorem C38_replaced (e : Model.Sms.Encoder) (text : List UInt8) (options : List Model.Sms.EncoderOption)
    (dopts : List CharsetOpt)
    (hst : (callTemplate e options).SmsType ∈ smsTypes) (hu : hdrLen (callTemplate e options).UDH ≤ 121)
    (halpha : (callTemplate e options).Alphabet.1 = .a7Bit)
    (ha : ¬ InSeptets (callCharsets e options) text)
    (hcarry : CanCarry (group (callTemplate e options).DCS) .ucs2) :
    ∃ r, e.Encode text options = .ok r ∧
      Sms.Decode r.pdus dopts = .ok (Unicode.encodeRunes (Unicode.decodeRunes text)) := by
  obtain ⟨r, out, h1, h2, _, _, h3, _⟩ := auto_decodes e text options dopts .ucs2 hst hu halpha (.fallback halpha ha) hcarry
  exact ⟨r, h1, by rw [h2, h3 rfl]⟩

-- a stray octet
example : ((do
    let pdus ← Sms.Encode [0x61, 0xff, 0x62] []
    Sms.Decode pdus []) : M _) = .ok [0x61, 0xef, 0xbf, 0xbd, 0x62] := by decide +kernel

/-- A call `Encode(text, options...)` whose TPDUs can be sent, whatever the text. -/
structure Postable (e : Model.Sms.Encoder) (text : List UInt8) (options : List Model.Sms.EncoderOption) : Prop where
  template : Sendable (callTemplate e options)
  header : hdrLen (callTemplate e options).UDH ≤ 121
  indicator : (callTemplate e options).UDHI = true ↔ (callTemplate e options).UDH ≠ []
  fresh : (callTemplate e options).ConcatInfo = none
  coding : (callTemplate e options).Alphabet.1 = .a7Bit
  carry : ∀ a, Chosen (callTemplate e options).DCS (callCharsets e options) text a →
    CanCarry (group (callTemplate e options).DCS) a
  nonempty : text ≠ []

/-- The texts that come back: UTF-8, and without U+001B if they are sent in septets. -/
def Comes (e : Model.Sms.Encoder) (text : List UInt8) (options : List Model.Sms.EncoderOption) : Prop :=
  Utf8 text ∧ (InSeptets (callCharsets e options) text → 0x1b ∉ text)

theorem postable_conveyable {e : Model.Sms.Encoder} {dopts : List CharsetOpt} {text : List UInt8}
    {options : List Model.Sms.EncoderOption} (h : Postable e text options) (hm : Matching (callCharsets e options) dopts)
    (hnat : Representable .default text → ∀ ie ∈ (callTemplate e options).UDH, ie.ID ≠ 24 ∧ ie.ID ≠ 25)
    (hc : Comes e text options) : Conveyable e dopts text options :=
  ⟨h.template, h.header, h.indicator, h.fresh, h.coding, h.carry, hm, hnat, hc.2, (utf8_iff _).1 hc.1, h.nonempty⟩

theorem callCharsets_counters (e : Model.Sms.Encoder) (options : List Model.Sms.EncoderOption) (a b : Counter) :
    callCharsets { e with MsgCount := a, ConcatRef := b } options = callCharsets e options := by
  unfold callCharsets; rw [apply_counters']

theorem postable_counters {e : Model.Sms.Encoder} {text : List UInt8}
    {options : List Model.Sms.EncoderOption} (a b : Counter) (h : Postable e text options) :
    Postable { e with MsgCount := a, ConcatRef := b } text options := by
  constructor <;> (try simp only [callTemplate_counters, callCharsets_counters])
  · exact h.template
  · exact h.header
  · exact h.indicator
  · exact h.fresh
  · exact h.coding
  · exact h.carry
  · exact h.nonempty

/-- What a call that can be posted gives. -/
structure Posted (e : Model.Sms.Encoder) (dopts : List CharsetOpt) (text : List UInt8)
    (options : List Model.Sms.EncoderOption) (i : Item) : Prop where
  good : Good dopts i
  here : Sms.Decode i.pdus dopts = .ok i.text
  utf8 : Utf8 i.text
  noEscape : InSeptets (callCharsets e options) text → 0x1b ∉ i.text
  same : Utf8 text → ¬ InSeptets (callCharsets e options) text → i.text = text
  type : i.type = (callTemplate e options).SmsType
  address : i.address = peer (callTemplate e options)
  made : ∃ a b r, ({ e with MsgCount := a, ConcatRef := b } : Model.Sms.Encoder).Encode text options = .ok r ∧ i.pdus = r.pdus

theorem posted_of (dopts : List CharsetOpt) (e : Model.Sms.Encoder) (text : List UInt8)
    (options : List Model.Sms.EncoderOption) (hc : Postable e text options) :
    ∃ r i, e.Encode text options = .ok r ∧ i.pdus = r.pdus ∧ Posted e dopts text options i := by
  obtain ⟨a, ha, _⟩ := C41_chosen (callTemplate e options).DCS (callCharsets e options) text
  have hst : (callTemplate e options).SmsType ∈ smsTypes := by
    rcases sendable_type _ hc.template with h | h <;> rw [h] <;> decide
  obtain ⟨r, out, hr, hd, hu, h7, h2, hne⟩ := auto_decodes e text options dopts a hst hc.header hc.coding ha (hc.carry a ha)
  obtain ⟨qs, h1, h2', h3, h4, h5, h6⟩ := auto_arrives e text options dopts out hc.template hc.header hc.indicator hc.fresh hc.coding r hr hd
  have hal : (DCS.Alphabet (callTemplate e options).DCS).1 = .a7Bit := hc.coding
  refine ⟨r, ⟨r.pdus, qs, out, _, _⟩, hr, rfl, ⟨h1, h2', ?_, h4, h5, sendable_type _ hc.template, h6⟩, hd, hu, ?_, ?_, rfl, rfl, ⟨e.MsgCount, e.ConcatRef, r, hr, rfl⟩⟩
  · intro hn
    exact h3 (hne hc.nonempty) hn
  · intro hs
    apply h7
    cases ha with
    | octets h => rw [h] at hal; cases hal
    | ucs2 h => rw [h] at hal; cases hal
    | septets _ _ => rfl
    | fallback _ h => exact absurd hs h
  · intro hu8 hs
    have : a = .ucs2 := by
      cases ha with
      | octets h => rw [h] at hal; cases hal
      | ucs2 h => rfl
      | septets _ h => exact absurd h hs
      | fallback _ h => rfl
    rw [h2 this]
    obtain ⟨rs, hrs, rfl⟩ := (utf8_iff _).1 hu8
    rw [decodeRunes_encodeRunes rs (fun r hr => (isScalar_iff r).mpr (hrs r hr))]

theorem posteds_of (dopts : List CharsetOpt) (calls : List (List UInt8 × List Model.Sms.EncoderOption)) :
    ∀ e : Model.Sms.Encoder, (∀ c ∈ calls, Postable e c.1 c.2) →
    ∃ items : List (Item × (List UInt8 × List Model.Sms.EncoderOption)), items.map (·.1.pdus) = encodes e calls ∧
      items.map (·.2) = calls ∧ ∀ i ∈ items, Posted e dopts i.2.1 i.2.2 i.1 := by
  induction calls with
  | nil => intro e _; exact ⟨[], rfl, rfl, by simp⟩
  | cons c calls ih =>
    intro e h
    obtain ⟨text, options⟩ := c
    obtain ⟨r, i, hr, hi, hp⟩ := posted_of dopts e text options (h (text, options) (by simp))
    obtain ⟨items, g1, g2, g3⟩ := ih { e with MsgCount := r.MsgCount, ConcatRef := r.ConcatRef }
      (fun c' hc' => postable_counters _ _ (h c' (by simp [hc'])))
    refine ⟨(i, (text, options)) :: items, ?_, ?_, ?_⟩
    · rw [encodes, hr, List.map_cons, g1, hi]
    · rw [List.map_cons, g2]
    · intro x hx
      rcases List.mem_cons.1 hx with rfl | hx
      · exact hp
      · have := g3 x hx
        exact ⟨this.good, this.here, this.utf8, by simpa only [callCharsets_counters] using this.noEscape,
          by simpa only [callCharsets_counters] using this.same, by simpa only [callTemplate_counters] using this.type,
          by simpa only [callTemplate_counters] using this.address, this.made⟩

/-- C59, for any texts: texts are encoded by one encoder, with options that may differ from call to call, and the
TPDUs are marshalled.  The octets are unmarshalled and collected in any order.  Then what the Collector returns decodes
to just what the TPDUs of each text decode to by themselves. -/
theorem C59_as_encoded (timeout handler : Bool) (options : List Model.Sms.EncoderOption) (dopts : List CharsetOpt)
    (calls : List (List UInt8 × List Model.Sms.EncoderOption))
    (hcalls : ∀ c ∈ calls, Postable (Sms.NewEncoder options) c.1 c.2)
    (hsize : ∀ pdus ∈ encodes (Sms.NewEncoder options) calls, pdus.length ≤ 255)
    (hmany : ((encodes (Sms.NewEncoder options) calls).filter (fun pdus => 2 ≤ pdus.length)).length ≤ 256) :
    ∃ received, SentAll (encodes (Sms.NewEncoder options) calls) received ∧
      ∀ arrival : List TPDU, arrival.Perm received.flatten →
        ∃ s os, run (New timeout handler) (arrival.map .collect) = .ok (s, os) ∧
          ((returns os).map (textOf dopts)).Perm
            ((encodes (Sms.NewEncoder options) calls).map (fun pdus => Sms.Decode pdus dopts)) ∧
          (∀ d err, .returned d err ∈ os → err = none) ∧ Pipes s = [] := by
  obtain ⟨items, h1, h2, h3⟩ := posteds_of dopts calls (Sms.NewEncoder options) hcalls
  have h1' : (items.map (·.1)).map (·.pdus) = encodes (Sms.NewEncoder options) calls := by rw [← h1, List.map_map]; rfl
  have hg : ∀ i ∈ items.map (·.1), Good dopts i := by
    intro i hi
    obtain ⟨x, hx, rfl⟩ := List.mem_map.1 hi
    exact (h3 x hx).good
  refine ⟨(items.map (·.1)).map (·.qs), by rw [← h1']; exact sentAll_items _ dopts hg, ?_⟩
  intro arrival ha
  obtain ⟨s, os, r1, r2, r3, r4⟩ := items_collected timeout handler options dopts calls _ h1' hg hsize hmany arrival ha
  refine ⟨s, os, r1, (r2.map (textOf dopts)).trans (List.Perm.of_eq ?_), r3, r4⟩
  rw [← h1, List.map_map, List.map_map, List.map_map]
  apply List.map_congr_left
  intro i hi
  simp only [Function.comp_apply, textOf, List.filterMap_map]
  have : (id ∘ some : TPDU → Option TPDU) = some := rfl
  rw [this, List.filterMap_some, (h3 i hi).here]
  exact (h3 i hi).good.dec

/-- If what comes back is a permutation of what was sent, then everything came back as it was. -/
theorem perm_comes {γ : Type} (items : List γ) (out text : γ → List UInt8) (septets : γ → Prop)
    (hutf : ∀ i ∈ items, Utf8 (out i)) (hesc : ∀ i ∈ items, septets i → 0x1b ∉ out i)
    (hsame : ∀ i ∈ items, Utf8 (text i) → ¬ septets i → out i = text i)
    (h : (items.map out).Perm (items.map text)) : ∀ i ∈ items, Utf8 (text i) ∧ (septets i → 0x1b ∉ text i) := by
  have hu : ∀ i ∈ items, Utf8 (text i) := by
    intro i hi
    obtain ⟨j, hj, he⟩ := List.mem_map.1 (h.mem_iff.2 (List.mem_map.2 ⟨i, hi, rfl⟩))
    rw [← he]
    exact hutf j hj
  have hcount : items.countP (fun i => decide (0x1b ∈ out i)) = items.countP (fun i => decide (0x1b ∈ text i)) := by
    have := h.countP_eq (fun t => decide ((0x1b : UInt8) ∈ t))
    rw [List.countP_map, List.countP_map] at this
    exact this
  have hle : ∀ l : List γ, (∀ i ∈ l, i ∈ items) →
      l.countP (fun i => decide (0x1b ∈ out i)) ≤ l.countP (fun i => decide (0x1b ∈ text i)) ∧
      (l.countP (fun i => decide (0x1b ∈ out i)) = l.countP (fun i => decide (0x1b ∈ text i)) →
        ∀ i ∈ l, septets i → 0x1b ∉ text i) := by
    intro l
    induction l with
    | nil => intro _; exact ⟨by simp, by simp⟩
    | cons i l ih =>
      intro hl
      obtain ⟨i1, i2⟩ := ih (fun j hj => hl j (by simp [hj]))
      have hi := hl i (by simp)
      rw [List.countP_cons, List.countP_cons]
      by_cases hs : septets i
      · have ho := hesc i hi hs
        simp only [ho, decide_false, if_false, Bool.false_eq_true, Nat.add_zero]
        refine ⟨by omega, ?_⟩
        intro he j hj hsj
        by_cases ht : 0x1b ∈ text i
        · simp only [ht, decide_true, if_true] at he
          omega
        · simp only [ht, decide_false, Bool.false_eq_true, if_false] at he
          rcases List.mem_cons.1 hj with rfl | hj
          · exact ht
          · exact i2 (by omega) j hj hsj
      · rw [hsame i hi (hu i hi) hs]
        refine ⟨by omega, ?_⟩
        intro he j hj hsj
        rcases List.mem_cons.1 hj with rfl | hj
        · exact absurd hsj hs
        · exact i2 (by omega) j hj hsj
  exact fun i hi => ⟨hu i hi, (hle items (fun _ h => h)).2 hcount i hi⟩

theorem perm_ok {l l' : List (List UInt8)} (h : (l.map (Except.ok : _ → M (List UInt8))).Perm (l'.map .ok)) : l.Perm l' := by
  have := h.filterMap (fun x : M (List UInt8) => match x with | .ok t => some t | .error _ => none)
  simpa [List.filterMap_map, Function.comp_def] using this

/-- C59, exactly: the texts come back, each once, if and only if each is UTF-8 and is sent in UCS-2 or has no U+001B.
The hypotheses are those of `C59_texts_partial` that are about the templates and the options. -/
theorem C59_exact (timeout handler : Bool) (options : List Model.Sms.EncoderOption) (dopts : List CharsetOpt)
    (calls : List (List UInt8 × List Model.Sms.EncoderOption))
    (hcalls : ∀ c ∈ calls, Postable (Sms.NewEncoder options) c.1 c.2)
    (htables : ∀ c ∈ calls, Matching (callCharsets (Sms.NewEncoder options) c.2) dopts)
    (hnat : ∀ c ∈ calls, Representable .default c.1 →
      ∀ ie ∈ (callTemplate (Sms.NewEncoder options) c.2).UDH, ie.ID ≠ 24 ∧ ie.ID ≠ 25)
    (hsize : ∀ pdus ∈ encodes (Sms.NewEncoder options) calls, pdus.length ≤ 255)
    (hmany : ((encodes (Sms.NewEncoder options) calls).filter (fun pdus => 2 ≤ pdus.length)).length ≤ 256) :
    ∃ received, SentAll (encodes (Sms.NewEncoder options) calls) received ∧
      ∀ arrival : List TPDU, arrival.Perm received.flatten →
        ∃ s os, run (New timeout handler) (arrival.map .collect) = .ok (s, os) ∧
          (((returns os).map (textOf dopts)).Perm (calls.map (fun c => .ok c.1)) ↔
            ∀ c ∈ calls, Comes (Sms.NewEncoder options) c.1 c.2) ∧
          (∀ d err, .returned d err ∈ os → err = none) ∧ Pipes s = [] := by
  obtain ⟨received, hsent, harr⟩ := C59_as_encoded timeout handler options dopts calls hcalls hsize hmany
  refine ⟨received, hsent, ?_⟩
  intro arrival ha
  obtain ⟨s, os, r1, r2, r3, r4⟩ := harr arrival ha
  refine ⟨s, os, r1, ⟨?_, ?_⟩, r3, r4⟩
  · intro hperm
    obtain ⟨items, h1, h2, h3⟩ := posteds_of dopts calls (Sms.NewEncoder options) hcalls
    have hp : (items.map (fun i => i.1.text)).Perm (items.map (fun i => i.2.1)) := by
      apply perm_ok
      have e1 : (encodes (Sms.NewEncoder options) calls).map (fun pdus => Sms.Decode pdus dopts) =
          (items.map (fun i => i.1.text)).map .ok := by
        rw [← h1, List.map_map, List.map_map]
        exact List.map_congr_left (fun i hi => (h3 i hi).here)
      have e2 : calls.map (fun c => (.ok c.1 : M (List UInt8))) = (items.map (fun i => i.2.1)).map .ok := by
        rw [← h2, List.map_map, List.map_map]; rfl
      rw [← e1, ← e2]
      exact r2.symm.trans hperm
    intro c hc
    rw [← h2] at hc
    obtain ⟨i, hi, rfl⟩ := List.mem_map.1 hc
    exact perm_comes items (fun i => i.1.text) (fun i => i.2.1)
      (fun i => InSeptets (callCharsets (Sms.NewEncoder options) i.2.2) i.2.1)
      (fun i hi => (h3 i hi).utf8) (fun i hi => (h3 i hi).noEscape) (fun i hi => (h3 i hi).same) hp i hi
  · intro hcomes
    obtain ⟨received', hsent', harr'⟩ := C59_texts_partial timeout handler options dopts calls
      (fun c hc => postable_conveyable (hcalls c hc) (htables c hc) (hnat c hc) (hcomes c hc)) hsize hmany
    have hrec : received = received' := by
      have : ∀ {pss qss}, SentAll pss qss → ∀ qss', SentAll pss qss' → qss = qss' := by
        intro pss qss h
        induction h with
        | nil => intro qss' h'; cases h'; rfl
        | cons h _ ih =>
          intro qss' h'
          cases h' with
          | cons g g' => rw [sent_unique _ _ _ h g, ih _ g']
      exact this hsent _ hsent'
    subst hrec
    obtain ⟨s', os', q1, q2, _⟩ := harr' arrival ha
    rw [r1] at q1
    cases q1
    exact q2

theorem postable_submit (digits text : List UInt8) (cs : List CharsetOpt) (hd : Digits digits) (hl : digits.length ≤ 255)
    (hne : text ≠ []) : Postable (Sms.NewEncoder (Sms.AsSubmit :: cs.map .charsets)) text [Sms.To digits] := by
  obtain ⟨ht, hc⟩ := submit_call digits cs hd
  constructor <;> (try simp only [ht, hc])
  · exact .submit rfl (by show FirstOctet.MTI 1 = 1; decide) (.inl ⟨by show ((0x91 : UInt8) >>> 4) &&& 0x07 ≠ 5; decide, hd, hl⟩) .absent (by show FirstOctet.VPF 1 = VpfNotPresent; decide)
  · exact Nat.zero_le _
  · show FirstOctet.UDHI 1 = true ↔ ([] : UDH) ≠ []
    decide
  · rfl
  · show (DCS.Alphabet 0).1 = .a7Bit
    decide
  · intro a ha
    cases ha <;> decide
  · exact hne

/-- C59, exactly, for the plain use of the library: an encoder for submissions with any charset options sends texts to
numbers of up to 255 digits.  They come back, each once, if and only if each is UTF-8 and is sent in UCS-2 or has no
U+001B. -/
theorem C59_submit_exact (timeout handler : Bool) (cs dopts : List CharsetOpt) (hm : Matching cs dopts)
    (msgs : List (List UInt8 × List UInt8))
    (hmsgs : ∀ digits text, (digits, text) ∈ msgs → Digits digits ∧ digits.length ≤ 255 ∧ text ≠ []) :
    let sent := encodes (Sms.NewEncoder (Sms.AsSubmit :: cs.map .charsets)) (msgs.map (fun m => (m.2, [Sms.To m.1])))
    (∀ pdus ∈ sent, pdus.length ≤ 255) → (sent.filter (fun pdus => 2 ≤ pdus.length)).length ≤ 256 →
    ∃ received, SentAll sent received ∧ ∀ arrival : List TPDU, arrival.Perm received.flatten →
      ∃ s os, run (New timeout handler) (arrival.map .collect) = .ok (s, os) ∧
        (((returns os).map (textOf dopts)).Perm (msgs.map (fun m => .ok m.2)) ↔
          ∀ digits text, (digits, text) ∈ msgs → Utf8 text ∧ (InSeptets cs text → 0x1b ∉ text)) ∧
        (∀ d err, .returned d err ∈ os → err = none) ∧ Pipes s = [] := by
  intro sent h1 h2
  have hof : ∀ c ∈ msgs.map (fun m => (m.2, [Sms.To m.1])), ∃ m ∈ msgs, c = (m.2, [Sms.To m.1]) ∧ Digits m.1 ∧
      m.1.length ≤ 255 ∧ m.2 ≠ [] := by
    intro c hc
    obtain ⟨m, hm', rfl⟩ := List.mem_map.1 hc
    exact ⟨m, hm', rfl, hmsgs m.1 m.2 hm'⟩
  obtain ⟨received, hsent, harr⟩ := C59_exact timeout handler (Sms.AsSubmit :: cs.map .charsets) dopts
    (msgs.map (fun m => (m.2, [Sms.To m.1])))
    (by
      intro c hc
      obtain ⟨m, _, rfl, g1, g2, g3⟩ := hof c hc
      exact postable_submit m.1 m.2 cs g1 g2 g3)
    (by
      intro c hc
      obtain ⟨m, _, rfl, g1, g2, g3⟩ := hof c hc
      rw [(submit_call m.1 cs g1).2]
      exact hm)
    (by
      intro c hc _ ie hie
      obtain ⟨m, _, rfl, g1, g2, g3⟩ := hof c hc
      rw [(submit_call m.1 cs g1).1] at hie
      cases hie) h1 h2
  refine ⟨received, hsent, ?_⟩
  intro arrival ha
  obtain ⟨s, os, r1, r2, r3⟩ := harr arrival ha
  refine ⟨s, os, r1, ?_, r3⟩
  rw [List.map_map] at r2
  refine r2.trans ⟨?_, ?_⟩
  · intro h digits text hmem
    have := h (text, [Sms.To digits]) (List.mem_map.2 ⟨_, hmem, rfl⟩)
    unfold Comes at this
    rw [(submit_call digits cs (hmsgs _ _ hmem).1).2] at this
    exact this
  · intro h c hc
    obtain ⟨m, hmem, rfl, g1, g2, g3⟩ := hof c hc
    unfold Comes
    rw [(submit_call m.1 cs g1).2]
    exact h m.1 m.2 hmem

-- texts that do not come back: with U+001B, and not UTF-8
example : (∀ digits text, (digits, text) ∈ [([0x31], [0x1b, 0x65]), ([0x32], [0x61, 0xff])] →
      Digits digits ∧ digits.length ≤ 255 ∧ text ≠ []) ∧ Matching [] [] ∧
    (encodes (Sms.NewEncoder (Sms.AsSubmit :: [].map .charsets)) [([0x1b, 0x65], [Sms.To [0x31]]), ([0x61, 0xff], [Sms.To [0x32]])]).map
      (fun pdus => Sms.Decode pdus []) = [.ok [0xe2, 0x82, 0xac], .ok [0x61, 0xef, 0xbf, 0xbd]] := by
  refine ⟨?_, (C38_matching []).1, by decide +kernel⟩
  intro digits text h
  simp only [List.mem_cons, Prod.mk.injEq, List.not_mem_nil, or_false] at h
  rcases h with ⟨rfl, rfl⟩ | ⟨rfl, rfl⟩ <;> exact ⟨by unfold Digits; decide, by decide, by decide⟩

end Verif.Props
