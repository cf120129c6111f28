import Verif.Spec.StdLanguage
import Verif.Props.CharTables
import Verif.Props.Alphabet

/-! C95: national languages are announced as the standard says. -/

namespace Verif.Props
open Verif.Model Verif.Model.Unicode Verif.Spec Verif.Proofs

/-- What the standard reads from septets, with the elements `locking` and `shift` for the languages (CR2, for
which the standard has no character, is read as the code does, C68). -/
def textBy (lockingIEI shiftIEI : UInt8) (udh : UDH) (ud : Bytes) : Bytes :=
  encodeRunes (Alphabet.read (Alphabet.locking (languageOf udh lockingIEI)) (shiftCR2 (languageOf udh shiftIEI)) (ud.map UInt8.toNat))

/-- What the standard reads from septets. -/
def standardText (udh : UDH) (ud : Bytes) : Bytes := textBy stdLockingIEI stdShiftIEI udh ud

theorem find_last (l : UDH) (iei : UInt8) : l.reverse.find? (fun ie => ie.ID = iei) = (l.filter fun ie => ie.ID = iei).getLast? := by
  rw [← List.head?_filter, List.filter_reverse, List.head?_reverse]

theorem mem_allNlis (n : UInt8) : ((n.toNat : Int) ∈ allNlis) ↔ 1 ≤ n.toNat ∧ n.toNat ≤ 13 := by
  revert n; apply forall_u8; decide +kernel

theorem nliOf_language (udh : UDH) (iei : UInt8) : (nliOf udh iei allNlis).getD 0 = languageOf udh iei := by
  unfold nliOf languageOf UDH.IE
  rw [find_last]
  generalize (udh.filter fun ie => ie.ID = iei).getLast? = o
  rcases o with _ | ⟨i, _ | ⟨n, d⟩⟩
  · rfl
  · rfl
  · simp only [mem_allNlis]
    split <;> rfl

/-- **C95** is false, but exactly this holds: septets are read as the standard says if 25 and 24 are taken for
the identifiers of the elements, which are 0x25 and 0x24 (Hindi: C68). -/
theorem C95_reads_partial (ud : Bytes) (udh : UDH) (h : languageOf udh 25 = 6 → ∀ g ∈ ud, 3 ≤ g.toNat) :
    DecodeUserData ud udh .a7Bit [.all] = ⟨textBy 25 24 udh ud, none⟩ := by
  obtain ⟨t, h1, h2⟩ := Sms.decodeUserData_7bit ud udh .a7Bit [.all] (by decide) (by decide)
  rw [h1]
  have e1 := nliOf_language udh lockingIEI
  have e2 := nliOf_language udh shiftIEI
  have c := C68_decode_partial (languageOf udh lockingIEI) (languageOf udh shiftIEI) ud h
  rw [← e1, ← e2] at c
  have e := Except.ok.inj (h2.symm.trans c)
  rw [e, e1, e2]
  rfl

/-- A header with neither these elements nor those of the standard is read by the default tables, as it should be. -/
theorem C95_default_partial (ud : Bytes) (udh : UDH) (h : ∀ ie ∈ udh, ie.ID ∉ [24, 25, stdShiftIEI, stdLockingIEI]) :
    DecodeUserData ud udh .a7Bit [.all] = ⟨standardText udh ud, none⟩ := by
  have z : ∀ iei ∈ [24, 25, stdShiftIEI, stdLockingIEI], languageOf udh iei = 0 := by
    intro iei hi
    unfold languageOf
    rw [List.filter_eq_nil_iff.2 (by
      intro ie hie he
      have : ie.ID = iei := by simpa using he
      exact h ie hie (by rw [this]; exact hi))]
    rfl
  rw [C95_reads_partial ud udh (by rw [z 25 (by simp)]; intro h; cases h)]
  unfold standardText textBy
  rw [z 25 (by simp), z 24 (by simp), z stdShiftIEI (by simp), z stdLockingIEI (by simp)]

/-- The standard reads "ğ" from septet 0x0c with the Turkish locking table; the code
takes element 0x25 for one it does not know, and reads "ø". -/
theorem C95_decode_counterexample : ∃ udh ud, standardText udh ud = [0xc4, 0x9f] ∧ DecodeUserData ud udh .a7Bit [.all] = ⟨[0xc3, 0xb8], none⟩ :=
  ⟨[⟨0x25, [1]⟩], [0x0c], by decide +kernel, by decide +kernel⟩

/-- What holds for the characters of both tables and the space holds for all that is read. -/
theorem read_all {P : Nat → Prop} {L S : Nat → Option Nat} (h0 : P 0x20) (ns : List Nat)
    (hL : ∀ n ∈ ns, ∀ r ∈ L n, P r) (hS : ∀ n ∈ ns, ∀ r ∈ S n, P r) : ∀ r ∈ Alphabet.read L S ns, P r := by
  have l : ∀ n ∈ ns, P ((L n).getD 0x20) := by
    intro n hn
    cases e : L n with
    | none => exact h0
    | some r => exact hL n hn r e
  have s : ∀ n ∈ ns, P ((S n).getD ((L n).getD 0x20)) := by
    intro n hn
    cases e : S n with
    | none => exact l n hn
    | some r => exact hS n hn r e
  clear hL hS
  fun_induction Alphabet.read L S ns with
  | case1 => simp
  | case2 rest ih => 
    intro r hr
    rcases List.mem_cons.1 hr with rfl | hr
    · exact h0
    · exact ih (fun n hn => l n (by simp [hn])) (fun n hn => s n (by simp [hn])) r hr
  | case3 g rest _ ih =>
    intro r hr
    rcases List.mem_cons.1 hr with rfl | hr
    · exact s g (by simp)
    · exact ih (fun n hn => l n (by simp [hn])) (fun n hn => s n (by simp [hn])) r hr
  | case4 => 
    intro r hr
    rw [List.mem_singleton.1 hr]; exact h0
  | case5 g rest _ _ _ ih =>
    intro r hr
    rcases List.mem_cons.1 hr with rfl | hr
    · exact l g (by simp)
    · exact ih (fun n hn => l n (by simp [hn])) (fun n hn => s n (by simp [hn])) r hr

/-- Characters read by the default tables can be encoded by them. -/
theorem read_default (d : Bytes) : ∀ r ∈ Alphabet.read (Alphabet.locking 0) (shiftCR2 0) (d.map UInt8.toNat),
    isScalar r = true ∧ ((∃ g, (g, r) ∈ Charset.NewDecoder 0) ∨ ∃ g, (g, r) ∈ Charset.NewExtDecoder 0) := by
  have sc : ∀ p ∈ Charset.NewDecoder 0 ++ Charset.NewExtDecoder 0, isScalar p.2 = true := by decide +kernel
  apply read_all
  · exact ⟨rfl, .inl ⟨0x20, by decide +kernel⟩⟩
  · intro n hn r hr
    obtain ⟨g, _, rfl⟩ := List.mem_map.1 hn
    have m := lookup_mem ((C68_locking_partial 0 g (by intro h; cases h)).trans hr)
    exact ⟨sc _ (List.mem_append.2 (.inl m)), .inl ⟨g, m⟩⟩
  · intro n hn r hr
    obtain ⟨g, _, rfl⟩ := List.mem_map.1 hn
    have m := lookup_mem ((C68_shift 0 g).trans hr)
    exact ⟨sc _ (List.mem_append.2 (.inr m)), .inr ⟨g, m⟩⟩

/-- **C95** for what is sent: the elements 0x24 and 0x25 are never in the header, ... -/
theorem C95_never_announced (text : Bytes) (options : List CharsetOpt) :
    ∀ ie ∈ (EncodeUserData text options).2.1, ie.ID = 24 ∨ ie.ID = 25 := by
  by_cases hd : Representable .default text
  · obtain ⟨d, h, _⟩ := C40_default text options hd
    rw [h]; simp
  by_cases h : InSeptets options text
  · obtain ⟨pre, L, post, e, h1, h2⟩ := find_first (offered options) (fun L => Representable L text) (h.resolve_left hd)
    obtain ⟨⟨d, h, _⟩, _⟩ := C40_language text options hd pre post L e h1 h2
    rw [h]
    intro ie hie
    simp only [Lang.header, List.mem_append, List.mem_map] at hie
    rcases hie with ⟨_, _, rfl⟩ | ⟨_, _, rfl⟩
    · exact .inr rfl
    · exact .inl rfl
  · rw [C40_fallback text options h]; simp

/-- ... so that a receiver that follows the standard reads from the octets, taken for septets, the text that
was encoded if and only if the text needs no language.  (Text that is sent as UCS-2 is not in septets; there both
sides are false.) -/
theorem C95_encode_exact (text : Bytes) (options : List CharsetOpt) (hesc : 0x1b ∉ text) :
    standardText (EncodeUserData text options).2.1 (EncodeUserData text options).1 = text ↔ Representable .default text := by
  have z : ∀ iei ∈ [stdShiftIEI, stdLockingIEI], languageOf (EncodeUserData text options).2.1 iei = 0 := by
    intro iei hi
    unfold languageOf
    rw [List.filter_eq_nil_iff.2 (by
      intro ie hie he
      have e : ie.ID = iei := by simpa using he
      rw [← e] at hi
      rcases C95_never_announced text options ie hie with h | h
      · rw [h] at hi; revert hi; decide
      · rw [h] at hi; revert hi; decide)]
    rfl
  have st : standardText (EncodeUserData text options).2.1 (EncodeUserData text options).1 =
      encodeRunes (Alphabet.read (Alphabet.locking 0) (shiftCR2 0) ((EncodeUserData text options).1.map UInt8.toNat)) := by
    unfold standardText textBy
    rw [z _ (by simp), z _ (by simp)]
  rw [st]
  constructor
  · intro e
    have hr := read_default (EncodeUserData text options).1
    have ed : decodeRunes text = Alphabet.read (Alphabet.locking 0) (shiftCR2 0) ((EncodeUserData text options).1.map UInt8.toNat) := by
      conv => lhs; rw [← e]
      exact decodeRunes_encodeRunes _ fun r h => (hr r h).1
    intro r h
    rw [ed] at h
    exact (hr r h).2
  · intro hd
    obtain ⟨d, h, hg⟩ := C40_default text options hd
    rw [h]
    have hg' : Gsm7.Encode text [.charset 0, .extCharset 0] = .ok d := hg
    have rt := C09_roundtrip_partial [.charset 0, .extCharset 0] (by intro o ho; simp at ho; rcases ho with rfl | rfl; exact ⟨0, .inl rfl⟩; exact ⟨0, .inr rfl⟩) text d hg' hesc
    rw [C68_decode_partial 0 0 d (by intro h; cases h)] at rt
    exact Except.ok.inj rt

/-- "ğ" sent with all languages offered is read by the standard as another character. -/
theorem C95_encode_counterexample : ∃ text, (EncodeUserData text [.all]).2.2 = .a7Bit ∧
    standardText (EncodeUserData text [.all]).2.1 (EncodeUserData text [.all]).1 ≠ text :=
  ⟨[0xc4, 0x9f], by decide +kernel, by decide +kernel⟩

/-- Text that meets the hypotheses: "a€". -/
example : (EncodeUserData [0x61, 0xe2, 0x82, 0xac] [.all]).2.2 = .a7Bit ∧ Representable .default [0x61, 0xe2, 0x82, 0xac] ∧
    (0x1b : UInt8) ∉ [0x61, 0xe2, 0x82, 0xac] :=
  ⟨by decide +kernel, (representable_iff _ _).2 ⟨_, show Gsm7.Encode _ [] = .ok [0x61, 0x1b, 0x65] by decide +kernel⟩, by decide⟩

end Verif.Props
