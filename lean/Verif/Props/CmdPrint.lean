import Verif.Spec.Printed
import Verif.Model.CmdPrint
import Verif.Proofs.PrintLines
import Verif.Proofs.Fields
import Verif.Props.CmdSubmitExact
import Verif.Props.CmdDeliverExact

/-! C96 and C97: what smssubmit and smsdeliver print. -/

namespace Verif.Props
open Verif.Model Verif.Spec Verif.Proofs

/-! Helpers. -/

theorem hexText_oneLine {s b : Bytes} (h : HexText s b) : (0x0a : UInt8) ∉ s := by
  have d : ∀ c v, HexDigit c v → c ≠ 0x0a := by
    intro c v h e
    subst e
    rcases h with h | h
    · have := List.mem_of_getElem? h; revert this; decide
    · have := List.mem_of_getElem? h; revert this; decide
  induction h with
  | nil => simp
  | cons h1 h2 _ ih => simp [ih, (d _ _ h1).symm, (d _ _ h2).symm]

theorem lines_unique {out : Bytes} {a b : List Bytes} (ha : Lines out a) (hb : Lines out b) : a = b := by
  have h := Print.unlines_inj (a := a) (b := b) (ha.1.symm.trans hb.1)
  rwa [Print.flat_lines ha.2, Print.flat_lines hb.2] at h

/-- The lines that are printed are hex. -/
theorem submit_hex (number text : Bytes) (nli : Int) (lines : List Bytes)
    (h : SmsSubmit.main number text nli = .ok (.tpdus lines)) : ∀ l ∈ lines, (0x0a : UInt8) ∉ l := by
  unfold SmsSubmit.main at h
  split at h
  · cases h
  simp only at h
  split at h
  · cases h
  · cases h
  · obtain ⟨ls, h1, h2⟩ := bind_eq_ok.1 h
    cases h2
    rename_i pdus he
    clear h he
    induction pdus generalizing lines with
    | nil => cases h1; simp
    | cons p ps ih =>
      rw [List.mapM_cons] at h1
      obtain ⟨x, hx, h1⟩ := bind_eq_ok.1 h1
      obtain ⟨xs, hxs, h1⟩ := bind_eq_ok.1 h1
      cases h1
      intro l hl
      rcases List.mem_cons.1 hl with rfl | hl
      · unfold SmsSubmit.hexLine at hx
        split at hx
        · cases hx; exact hexText_oneLine (hex_encode _)
        · cases hx; exact hexText_oneLine (hex_encode _)
        · cases hx
      · exact ih _ hxs l hl

/-- The lines of the output. -/
def blocks (n : Nat) : Nat → List Bytes → List Bytes
  | _, [] => []
  | i, h :: hs => (if n = 1 then b!"Submit TPDU:" else b!"Submit TPDU " ++ decimal (i + 1) ++ b!":") :: h :: blocks n (i + 1) hs

theorem blocks_even (n : Nat) (hs : List Bytes) : ∀ i, evenLines (blocks n i hs) = hs := by
  induction hs with
  | nil => intro i; rfl
  | cons h hs ih => intro i; simp only [blocks, evenLines, ih]

theorem blocks_odd (n : Nat) (hs : List Bytes) : ∀ i, (oddLines (blocks n i hs)).length = hs.length ∧
    ∀ j < hs.length, (oddLines (blocks n i hs))[j]? =
      some (if n = 1 then b!"Submit TPDU:" else b!"Submit TPDU " ++ decimal (i + j + 1) ++ b!":") := by
  induction hs with
  | nil => intro i; exact ⟨rfl, by simp⟩
  | cons h hs ih =>
    intro i
    refine ⟨by simp [blocks, oddLines, (ih (i + 1)).1], ?_⟩
    intro j hj
    simp only [blocks, oddLines]
    cases j with
    | zero => rfl
    | succ j =>
      rw [List.getElem?_cons_succ, (ih (i + 1)).2 j (by simpa using hj), show i + 1 + j = i + (j + 1) by omega]

theorem blocks_lines (n : Nat) (hs : List Bytes) (h : ∀ l ∈ hs, (0x0a : UInt8) ∉ l) : ∀ i, ∀ l ∈ blocks n i hs, (0x0a : UInt8) ∉ l := by
  induction hs with
  | nil => intro i; simp [blocks]
  | cons x hs ih =>
    intro i l hl
    simp only [blocks, List.mem_cons] at hl
    rcases hl with rfl | rfl | hl
    · split
      · decide
      · simp only [List.mem_append, not_or]
        refine ⟨⟨by decide, fun hm => ?_⟩, by decide⟩
        have := (Print.writes_decimal (i + 1)).2.1 _ hm
        revert this; decide
    · exact h _ (by simp)
    · exact ih (fun l hl => h l (by simp [hl])) _ l hl

theorem submit_stdout (hs : List Bytes) : SmsSubmit.stdout (.tpdus hs) = (blocks hs.length 0 hs).flatMap (· ++ [0x0a]) := by
  have gen : ∀ (n : Nat), n ≠ 1 → ∀ (hs : List Bytes) (i : Nat), ((hs.zipIdx i).flatMap fun p => b!"Submit TPDU " ++ decimal (p.2 + 1) ++ b!":\n" ++ p.1 ++ b!"\n") =
      (blocks n i hs).flatMap (· ++ [0x0a]) := by
    intro n hn hs
    induction hs with
    | nil => intro i; rfl
    | cons h hs ih =>
      intro i
      rw [List.zipIdx_cons, List.flatMap_cons, ih, blocks, List.flatMap_cons, List.flatMap_cons, if_neg hn]
      simp
  match hs with
  | [] => rfl
  | [h] => simp [SmsSubmit.stdout, blocks]
  | a :: b :: r => exact gen _ (by simp) _ 0

/-- **C96**: whatever smssubmit prints is lines in pairs: a heading, which counts the TPDUs if there is more than
one, and the TPDU in hex. -/
theorem C96_lines (number text : Bytes) (nli : Int) (hs : List Bytes) (h : SmsSubmit.main number text nli = .ok (.tpdus hs)) :
    ∃ ls, Lines (SmsSubmit.stdout (.tpdus hs)) ls ∧ ls.length = 2 * hs.length ∧ evenLines ls = hs ∧ (oddLines ls).length = hs.length ∧
      (hs.length = 1 → oddLines ls = [b!"Submit TPDU:"]) ∧
      (hs.length ≠ 1 → ∀ i < hs.length, ∃ ds, (oddLines ls)[i]? = some (b!"Submit TPDU " ++ ds ++ b!":") ∧ Writes ds (i + 1)) := by
  have ho := blocks_odd hs.length hs 0
  refine ⟨blocks hs.length 0 hs, ⟨submit_stdout hs, blocks_lines _ hs (submit_hex number text nli hs h) 0⟩, ?_, blocks_even _ _ _, ho.1, ?_, ?_⟩
  · have : ∀ n i, ∀ hs : List Bytes, (blocks n i hs).length = 2 * hs.length := by
      intro n i hs
      induction hs generalizing i with
      | nil => rfl
      | cons _ hs ih => simp [blocks, ih]; omega
    exact this _ _ _
  · intro h1
    match hs, h1 with
    | [x], _ => rfl
  · intro h1 i hi
    have := ho.2 i hi
    rw [if_neg h1, Nat.zero_add] at this
    exact ⟨_, this, Print.writes_decimal _⟩

/-- C96: from the output alone, by its even lines, one gets SMS-SUBMITs to the number that are decoded to the text
exactly if the number is digits, at most 255, and the text is UTF-8 and is sent in UCS-2 or has no U+001B. -/
theorem C96_exact (number text : Bytes) (nli : Int) (hn : number ≠ []) (ht : text ≠ []) :
    (∃ out ls wire qs, SmsSubmit.main number text nli = .ok out ∧ Lines (SmsSubmit.stdout out) ls ∧ Spells (evenLines ls) wire ∧
      wire.map (fun b => Sms.Unmarshal b MO) = qs.map .ok ∧ Sms.Decode qs [] = .ok text ∧
      ∀ q ∈ qs, q.SmsType = SmsSubmit ∧ q.DA = ⟨0x91, digitsOf number⟩) ↔
    Digits (digitsOf number) ∧ (digitsOf number).length ≤ 255 ∧ Utf8 text ∧
      (InSeptets (languageCharsets nli) text → 0x1b ∉ text) := by
  rw [← C65_exact number text nli hn ht]
  constructor
  · rintro ⟨out, ls, wire, qs, h1, h2, h3⟩
    obtain ⟨hs, e, _⟩ := (C65_usage number text nli).2 hn ht
    rw [h1] at e
    cases e
    obtain ⟨ls', h4, _, h5, _⟩ := C96_lines number text nli hs h1
    rw [lines_unique h2 h4, h5] at h3
    exact ⟨hs, wire, qs, h1, h3⟩
  · rintro ⟨hs, wire, qs, h1, h3⟩
    obtain ⟨ls, h4, _, h5, _⟩ := C96_lines number text nli hs h1
    exact ⟨.tpdus hs, ls, wire, qs, h1, h4, by rw [h5]; exact h3.1, h3.2⟩

/-- The first sample of README.md. -/
example : (SmsSubmit.main b!"12345" b!"Hello world" 0).map SmsSubmit.stdout =
    .ok b!"Submit TPDU:\n010105912143f500000bc8329bfd06dddf723619\n" := by decide +kernel

/-- Nothing is printed without a number or text. -/
theorem C96_usage (number text : Bytes) (nli : Int) (h : number = [] ∨ text = []) :
    (SmsSubmit.main number text nli).map SmsSubmit.stdout = .ok [] := by
  rw [(C65_usage number text nli).1 h]; rfl

/-! C97. -/

/-- The messages among what smsdeliver prints and logs. -/
def messagesOf (lines : List SmsDeliver.Line) : List (Bytes × Bytes) := lines.filterMap fun l => match l with
  | .message number text => some (number, text)
  | _ => none

theorem deliver_stdout (addr : Bytes → Nat → Bytes) (lines : List SmsDeliver.Line) (h : ∀ l ∈ lines, ∀ k s, l ≠ .incomplete k s) :
    SmsDeliver.stdout addr lines = ((messagesOf lines).map fun m => m.1 ++ b!": " ++ m.2).flatMap (· ++ [0x0a]) := by
  induction lines with
  | nil => rfl
  | cons l ls ih =>
    have ih := ih fun x hx => h x (by simp [hx])
    have e : SmsDeliver.stdout addr (l :: ls) = SmsDeliver.lineText addr l ++ SmsDeliver.stdout addr ls := rfl
    rw [e, ih]
    cases l with
    | message n t => simp [messagesOf, SmsDeliver.lineText]
    | incomplete k s => exact absurd rfl (h _ (by simp) k s)
    | _ => rfl

theorem zip_self {α β : Type} (f : α → β) (l : List α) : ∀ p ∈ (l.map f).zip l, p.1 = f p.2 := by
  induction l with
  | nil => simp
  | cons a l ih => simp only [List.map_cons, List.zip_cons_cons, List.forall_mem_cons]; exact ⟨trivial, ih⟩

theorem mem_zip_self {α β : Type} (f : α → β) (l : List α) (a : α) (h : a ∈ l) : (f a, a) ∈ (l.map f).zip l := by
  induction l with
  | nil => cases h
  | cons b l ih =>
    rcases List.mem_cons.1 h with rfl | h
    · simp
    · simp [ih h]

/-- **C97** is false; it is true of these messages only: as long as nothing is incomplete, the output is read as the
messages that were collected if and only if no number and no text has an LF, and no number has ": ". -/
theorem C97_exact (addr : Bytes → Nat → Bytes) (lines : List SmsDeliver.Line) (h : ∀ l ∈ lines, ∀ k s, l ≠ .incomplete k s) :
    ReadAs (SmsDeliver.stdout addr lines) (messagesOf lines) ↔
      ∀ m ∈ messagesOf lines, (0x0a : UInt8) ∉ m.1 ∧ (0x0a : UInt8) ∉ m.2 ∧ ¬ b!": " <:+: m.1 := by
  rw [deliver_stdout addr lines h]
  generalize messagesOf lines = ms
  constructor
  · rintro ⟨ls, hl, hn, hm⟩
    have e := Print.unlines_inj (a := ms.map fun m : Bytes × Bytes => m.1 ++ b!": " ++ m.2) (b := ls) hl.1
    rw [Print.flat_lines hl.2] at e
    -- as many lines as messages: each message is one line
    have one : ∀ (xs : List Bytes), (xs.flatMap splitLF).length ≤ xs.length → ∀ x ∈ xs, (0x0a : UInt8) ∉ x := by
      have pos : ∀ xs : List Bytes, xs.length ≤ (xs.flatMap splitLF).length := by
        intro xs
        induction xs with
        | nil => simp
        | cons x xs ih =>
          have := List.length_pos_iff.2 (Print.splitLF_ne x)
          rw [List.flatMap_cons, List.length_append, List.length_cons]; omega
      intro xs
      induction xs with
      | nil => simp
      | cons x xs ih =>
        intro hlen
        have h1 := List.length_pos_iff.2 (Print.splitLF_ne x)
        have h2 := pos xs
        rw [List.flatMap_cons, List.length_append, List.length_cons] at hlen
        intro y hy
        rcases List.mem_cons.1 hy with rfl | hy
        · intro hc
          obtain ⟨a, r, rfl⟩ := List.append_of_mem hc
          rw [Print.splitLF_append, List.length_append] at hlen
          have h3 := List.length_pos_iff.2 (Print.splitLF_ne a)
          have h4 := List.length_pos_iff.2 (Print.splitLF_ne r)
          rw [Print.splitLF_append, List.length_append] at h1
          omega
        · exact ih (by omega) y hy
    have hlf := one (ms.map fun m => m.1 ++ b!": " ++ m.2) (by rw [e, List.length_map]; omega)
    rw [Print.flat_lines hlf] at e
    subst e
    intro m hm'
    have hx := hlf _ (List.mem_map_of_mem hm')
    simp only [List.mem_append, not_or] at hx
    exact ⟨hx.1.1, hx.2, (hm _ (mem_zip_self (fun m => m.1 ++ b!": " ++ m.2) ms m hm')).2⟩
  · intro h
    refine ⟨ms.map fun m => m.1 ++ b!": " ++ m.2, ⟨rfl, ?_⟩, by simp, ?_⟩
    · intro l hl
      obtain ⟨m, hm, rfl⟩ := List.mem_map.1 hl
      obtain ⟨h1, h2, _⟩ := h m hm
      simp only [List.mem_append, not_or]
      exact ⟨⟨h1, by decide⟩, h2⟩
    · intro p hp
      refine ⟨zip_self (fun m => m.1 ++ b!": " ++ m.2) ms p hp, ?_⟩
      exact (h p.2 (List.of_mem_zip hp).2).2.2

theorem messageLine_le {n t n' t' : Bytes} (h : n ++ b!": " ++ t = n' ++ b!": " ++ t') (hn : ¬ b!": " <:+: n') :
    ∃ x, n' ++ x = n := by
  rw [List.append_assoc, List.append_assoc] at h
  rcases List.append_eq_append_iff.1 h with ⟨x, h1, h2⟩ | ⟨x, h1, _⟩
  · rcases x with _ | ⟨c, _ | ⟨d, x⟩⟩
    · exact ⟨[], by simpa using h1⟩
    · simp at h2
    · simp only [List.cons_append, List.cons.injEq, List.nil_append] at h2
      obtain ⟨rfl, rfl, _⟩ := h2
      exact absurd ⟨n, x, by rw [h1]; simp⟩ hn
  · exact ⟨x, h1.symm⟩

theorem messageLine_unique {l n t n' t' : Bytes} (h : MessageLine l n t) (h' : MessageLine l n' t') : n = n' ∧ t = t' := by
  have e := h.1.symm.trans h'.1
  obtain ⟨x, hx⟩ := messageLine_le e h'.2
  obtain ⟨y, hy⟩ := messageLine_le e.symm h.2
  have : x = [] := by
    have := congrArg List.length hx
    have := congrArg List.length hy
    simp only [List.length_append] at *
    exact List.length_eq_zero_iff.1 (by omega)
  subst this
  rw [List.append_nil] at hx
  subst hx
  exact ⟨rfl, List.append_cancel_left e⟩

/-- Reading is unambiguous: an output is read as one list of messages at most. -/
theorem C97_unique (out : Bytes) (a b : List (Bytes × Bytes)) (ha : ReadAs out a) (hb : ReadAs out b) : a = b := by
  obtain ⟨ls, h1, h2, h3⟩ := ha
  obtain ⟨ls', h1', h2', h3'⟩ := hb
  cases lines_unique h1 h1'
  clear h1 h1'
  induction ls generalizing a b with
  | nil =>
    rw [List.length_nil] at h2 h2'
    rw [List.length_eq_zero_iff.1 h2.symm, List.length_eq_zero_iff.1 h2'.symm]
  | cons l ls ih =>
    cases a with
    | nil => simp at h2
    | cons x a =>
      cases b with
      | nil => simp at h2'
      | cons y b =>
        simp only [List.zip_cons_cons, List.forall_mem_cons] at h3 h3'
        rw [ih a b (by simpa using h2) h3.2 (by simpa using h2') h3'.2]
        obtain ⟨e1, e2⟩ := messageLine_unique h3.1 h3'.1
        rw [Prod.ext e1 e2]

/-- C97 is false: one message with an LF is printed like two messages, of which the sender can choose the number. -/
theorem C97_counterexample (addr : Bytes → Nat → Bytes) :
    SmsDeliver.stdout addr [.message b!"+1" b!"a\n+2: b"] = SmsDeliver.stdout addr [.message b!"+1" b!"a", .message b!"+2" b!"b"] ∧
    SmsDeliver.main false [b!"000191f10000111010000000000761c54aa6038901"] = .ok [.message b!"+1" b!"a\n+2: b"] :=
  ⟨rfl, by decide +kernel⟩

theorem report_no_incomplete {d : List (Option Collector.Ptr)} {err : Option Err} {ls : List SmsDeliver.Line}
    (h : SmsDeliver.report d err = .ok ls) : ∀ l ∈ ls, ∀ k s, l ≠ .incomplete k s := by
  have pre : ∀ l ∈ (match err with
      | some e => [.collectError e]
      | none => [] : List SmsDeliver.Line), ∀ k s, l ≠ .incomplete k s := by
    cases err <;> simp
  unfold SmsDeliver.report at h
  simp only at h
  split at h
  · cases h; exact pre
  · split at h
    · cases h
      intro l hl
      rcases List.mem_append.1 hl with hl | hl
      · exact pre l hl
      · rw [List.mem_singleton.1 hl]; simp
    · cases h
    · obtain ⟨p0, _, h⟩ := bind_eq_ok.1 h
      cases p0 with
      | none => cases h
      | some p =>
        cases h
        intro l hl
        rcases List.mem_append.1 hl with hl | hl
        · exact pre l hl
        · rw [List.mem_singleton.1 hl]; simp

/-- C97: what is incomplete is reported after all the messages, so that the output up to there is as in
`C97_exact`. -/
theorem C97_order (pm : Bool) (args : List Bytes) (lines : List SmsDeliver.Line) (h : SmsDeliver.main pm args = .ok lines) :
    ∃ first last, lines = first ++ last ∧ (∀ l ∈ first, ∀ k s, l ≠ .incomplete k s) ∧ (∀ l ∈ last, ∃ k s, l = .incomplete k s) ∧
      ∀ addr, SmsDeliver.stdout addr lines = SmsDeliver.stdout addr first ++ SmsDeliver.stdout addr last := by
  suffices key : ∀ (args : List Bytes) (st : Collector.State) (lines : List SmsDeliver.Line), SmsDeliver.loop pm st args = .ok lines →
      ∃ first last, lines = first ++ last ∧ (∀ l ∈ first, ∀ k s, l ≠ .incomplete k s) ∧ (∀ l ∈ last, ∃ k s, l = .incomplete k s) by
    obtain ⟨first, last, h1, h2, h3⟩ := key args _ lines h
    exact ⟨first, last, h1, h2, h3, fun addr => by rw [h1]; exact List.flatMap_append⟩
  intro args
  induction args with
  | nil =>
    intro st lines h
    cases h
    refine ⟨[], _, rfl, by simp, ?_⟩
    intro l hl
    obtain ⟨kp, _, rfl⟩ := List.mem_map.1 hl
    exact ⟨_, _, rfl⟩
  | cons a args ih =>
    intro st lines h
    rw [SmsDeliver.loop] at h
    split at h
    · cases h; exact ⟨[_], [], rfl, by simp, by simp⟩
    · cases h
    · split at h
      · obtain ⟨rest, hr, h⟩ := bind_eq_ok.1 h
        cases h
        obtain ⟨f, l, rfl, h1, h2⟩ := ih _ _ hr
        exact ⟨_ :: f, l, rfl, by simpa using h1, h2⟩
      · cases h
      · obtain ⟨⟨s, o⟩, _, h⟩ := bind_eq_ok.1 h
        simp only at h
        split at h
        · obtain ⟨ls, hl, h⟩ := bind_eq_ok.1 h
          obtain ⟨rest, hr, h⟩ := bind_eq_ok.1 h
          cases h
          obtain ⟨f, l, rfl, h1, h2⟩ := ih _ _ hr
          refine ⟨ls ++ f, l, by simp, ?_, h2⟩
          intro x hx
          rcases List.mem_append.1 hx with hx | hx
          · exact report_no_incomplete hl x hx
          · exact h1 x hx
        · exact ih _ _ h

/-- C97 for the plain use (C66): texts without LF from international numbers arrive, in any order, as lines that
are read as the numbers and texts. -/
theorem C97_plain_partial (addr : Bytes → Nat → Bytes) (pm : Bool) (time : GoTime) (ht : TimeOk time) (msgs : List (List UInt8 × List UInt8))
    (hmsgs : ∀ digits text, (digits, text) ∈ msgs → Digits digits ∧ digits.length ≤ 255 ∧ text ≠ [] ∧
      (InSeptets [] text → 0x1b ∉ text) ∧ ∃ rs, (∀ r ∈ rs, Scalar r) ∧ text = Unicode.encodeRunes rs)
    (hlf : ∀ m ∈ msgs, (0x0a : UInt8) ∉ m.2) :
    let pdus := encodes (Sms.NewEncoder [.template { SCTS := time }]) (msgs.map (fun m => (m.2, [Sms.From m.1])))
    (∀ ps ∈ pdus, ps.length ≤ 255) → (pdus.filter (fun ps => 2 ≤ ps.length)).length ≤ 256 →
    ∃ wire : List (List UInt8), pdus.flatten.map TPDU.MarshalBinary = wire.map .ok ∧
      ∀ sent args, sent.Perm wire → Arguments pm args sent →
        ∃ lines printed, SmsDeliver.main pm args = .ok lines ∧ ReadAs (SmsDeliver.stdout addr lines) printed ∧
          printed.Perm (msgs.map fun m => (0x2b :: m.1, m.2)) := by
  intro pdus h1 h2
  obtain ⟨wire, w1, w2⟩ := C66_plain_partial pm time ht msgs hmsgs h1 h2
  refine ⟨wire, w1, ?_⟩
  intro sent args hs ha
  obtain ⟨lines, l1, l2⟩ := w2 sent args hs ha
  have hp : (messagesOf lines).Perm (msgs.map fun m => (0x2b :: m.1, m.2)) := by
    have := l2.filterMap fun l => match l with
      | .message number text => some (number, text)
      | _ => none
    rw [List.filterMap_map] at this
    have e : (msgs.filterMap ((fun l : SmsDeliver.Line => match l with
      | .message number text => some (number, text)
      | _ => none) ∘ fun m : Bytes × Bytes => .message (0x2b :: m.1) m.2)) = msgs.map fun m => (0x2b :: m.1, m.2) := by
      rw [← List.filterMap_eq_map]; rfl
    rw [e] at this
    exact this
  refine ⟨lines, messagesOf lines, l1, (C97_exact addr lines ?_).2 ?_, hp⟩
  · intro l hl k s e
    subst e
    have := l2.mem_iff.1 hl
    obtain ⟨_, _, e⟩ := List.mem_map.1 this
    cases e
  · intro m hm
    obtain ⟨⟨d, t⟩, hx, rfl⟩ := List.mem_map.1 (hp.mem_iff.1 hm)
    have hd := (hmsgs d t hx).1
    have nc : ∀ c ∈ (0x2b :: d : Bytes), c ∉ ([0x0a, 0x3a] : Bytes) := by
      intro c hc
      rcases List.mem_cons.1 hc with rfl | hc
      · decide
      · have all : ∀ c ∈ digitChars, c ∉ ([0x0a, 0x3a] : Bytes) := by decide
        exact all c (hd c hc)
    refine ⟨fun hc => nc _ hc (by simp), hlf (d, t) hx, fun hc => nc 0x3a (hc.subset (by simp)) (by simp)⟩

end Verif.Props
