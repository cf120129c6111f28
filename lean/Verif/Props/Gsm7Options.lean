import Verif.Props.Gsm7

/-! C10 and C11 for the options and methods by which a decoder is made strict, or does without an extension table. -/

namespace Verif.Props
open Verif.Model Verif.Model.Gsm7 Verif.Model.Unicode Verif.Spec Verif.Proofs

/-- Whether an option is `Strict`. -/
private def isStrict : Option' → Bool
  | .strict => true
  | _ => false

private theorem fold_strict (opts : List Option') : ∀ d : Decoder,
    opts.foldl applyDecoderOption d =
      { (opts.filter fun o => !isStrict o).foldl applyDecoderOption { d with strict := false } with
        strict := d.strict || opts.any isStrict } := by
  induction opts with
  | nil => intro d; simp
  | cons o opts ih =>
    intro d
    rw [List.foldl_cons, ih]
    cases o <;> simp [isStrict, applyDecoderOption]

private theorem fold_plain (opts : List Option') (d : Decoder) (h : opts.any isStrict = false) :
    (opts.foldl applyDecoderOption d).strict = d.strict := by
  rw [fold_strict, h, Bool.or_false]

/-- C11: a decoder made without the option `Strict` decodes everything.  With the option, wherever in the list it is given and
however often, or with the method, it reports the first septet that has no mapping in the table consulted for it, and decodes
all else in the same way. -/
theorem C11_options (opts : List Option') (hn : ∀ o ∈ opts, o ≠ .strict) (src : List UInt8) :
    (∃ rs, (∀ r ∈ rs, isScalar r = true) ∧ (NewDecoder opts).Decode src = .ok (encodeRunes rs)) ∧
    (∀ before after, opts = before ++ after →
      (NewDecoder (before ++ .strict :: after)).Decode src = (NewDecoder opts).Strict.Decode src) ∧
    (NewDecoder opts).Strict.Strict.Decode src = (NewDecoder opts).Strict.Decode src ∧
    ((∀ pre g post, src = pre ++ g :: post → ¬ Unmapped (NewDecoder opts) pre g) →
      (NewDecoder opts).Strict.Decode src = (NewDecoder opts).Decode src) ∧
    ∀ pre g post, src = pre ++ g :: post → Unmapped (NewDecoder opts) pre g →
      (∀ pre' g' post', pre = pre' ++ g' :: post' → ¬ Unmapped (NewDecoder opts) pre' g') →
      (NewDecoder opts).Strict.Decode src = fail (.gsm7InvalidSeptet g) := by
  have ha : opts.any isStrict = false := by
    rw [List.any_eq_false]
    intro o ho
    have := hn o ho
    cases o <;> simp_all [isStrict]
  have hs : (NewDecoder opts).strict = false := fold_plain opts _ ha
  have he : { NewDecoder opts with strict := false } = NewDecoder opts := by rw [← hs]
  have hx := C11_strict_exact (NewDecoder opts) src
  rw [he] at hx
  refine ⟨C11_total _ src hs, ?_, rfl, hx.1, hx.2⟩
  intro before after h
  have hd : NewDecoder (before ++ .strict :: after) = (NewDecoder opts).Strict := by
    unfold NewDecoder Decoder.Strict
    rw [fold_strict, fold_strict opts, h]
    simp [isStrict]
  rw [hd]

/-- C11: without an extension table, by option or by method, an escape is only skipped: the septet after it has the meaning it
has without, and what has no escape is decoded as before. -/
theorem C11_without_ext (opts : List Option') (hn : ∀ o ∈ opts, o ≠ .strict) :
    (∀ src, (NewDecoder (opts ++ [.withoutExt])).Decode src = (NewDecoder opts).WithoutExt.Decode src) ∧
    (∀ g, g ≠ 0x1b → (NewDecoder opts).WithoutExt.Decode [0x1b, g] = (NewDecoder opts).Decode [g]) ∧
    ∀ src, 0x1b ∉ src → (NewDecoder opts).WithoutExt.Decode src = (NewDecoder opts).Decode src := by
  have ha : opts.any isStrict = false := by
    rw [List.any_eq_false]
    intro o ho
    have := hn o ho
    cases o <;> simp_all [isStrict]
  have hs : (NewDecoder opts).strict = false := fold_plain opts _ ha
  refine ⟨fun src => ?_, fun g hg => ?_, fun src h => ?_⟩
  · have : NewDecoder (opts ++ [.withoutExt]) = (NewDecoder opts).WithoutExt := by
      unfold NewDecoder
      rw [List.foldl_append]
      rfl
    rw [this]
  · rw [(C11_character (NewDecoder opts).WithoutExt hs g hg).2.1, (C11_character (NewDecoder opts) hs g hg).1]
    rfl
  · rw [decoder_decode_eq, decoder_decode_eq]
    induction src with
    | nil => rfl
    | cons g src ih =>
      have hg : ¬ g = esc := fun e => h (by rw [e]; exact List.mem_cons_self)
      have ih := ih (fun e => h (List.mem_cons_of_mem _ e))
      simp only [Decoder.loop, if_neg hg]
      rw [ih]
      rfl

/-- C10: without an extension table, text is encoded if all of its characters are in the table, one septet each, as with one. -/
theorem C10_without_ext (e : Encoder) (text : List UInt8) :
    (∀ g, e.WithoutExt.Encode text = .ok g ↔
      (decodeRunes text).map (List.lookup · e.set) = g.map some) ∧
    ∀ g, e.WithoutExt.Encode text = .ok g → e.Encode text = .ok g := by
  rw [encoder_encode_eq, encoder_encode_eq]
  generalize decodeRunes text = us
  refine ⟨?_, ?_⟩
  · induction us with
    | nil => intro g; cases g <;> simp [Encoder.loop]
    | cons u us ih =>
      intro g
      show (match e.set.lookup u with | some g => _ | none => _) = _ ↔ _
      cases hu : e.set.lookup u with
      | none => cases g <;> simp [Encoder.WithoutExt, fail, hu]
      | some c =>
        simp only
        constructor
        · intro h
          obtain ⟨rest, h1, h2⟩ := bind_eq_ok.1 h
          cases h2
          simp only [List.map_cons, hu]
          rw [(ih rest).1 h1]
        · intro h
          cases g with
          | nil => simp at h
          | cons c' g =>
            simp only [List.map_cons, hu, List.cons.injEq, Option.some.injEq] at h
            rw [(ih g).2 h.2, h.1]
            rfl
  · induction us with
    | nil => intro g h; exact h
    | cons u us ih =>
      intro g h
      replace h : (match e.set.lookup u with | some g => _ | none => _) = _ := h
      unfold Encoder.loop
      cases hu : e.set.lookup u with
      | none => rw [hu] at h; cases h
      | some c =>
        rw [hu] at h
        obtain ⟨rest, h1, h2⟩ := bind_eq_ok.1 h
        cases h2
        simp only
        rw [ih rest h1]
        rfl

/-- Beside C10, C11: the euro sign, `1b 65`, with and without the extension table, and a septet that has no mapping there. -/
example :
    (NewDecoder []).Decode [0x61, 0x1b, 0x65] = .ok [0x61, 0xe2, 0x82, 0xac] ∧
    (NewDecoder []).WithoutExt.Decode [0x61, 0x1b, 0x65] = .ok [0x61, 0x65] ∧
    (NewDecoder []).WithoutExt.Strict.Decode [0x61, 0x1b, 0x65] = fail (.gsm7InvalidSeptet 0x65) ∧
    (NewDecoder [.strict, .withoutExt]).Decode [0x61, 0x62] = .ok [0x61, 0x62] ∧
    (NewEncoder []).WithoutExt.Encode [0x61] = .ok [0x61] ∧
    (NewEncoder []).WithoutExt.Encode [0xe2, 0x82, 0xac] = fail (.gsm7InvalidUTF8 0x20ac) := by
  decide +kernel

end Verif.Props
