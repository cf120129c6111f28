import Verif.Spec.Deliver
import Verif.Proofs.Basic
import Verif.Model.Print

/-! C112: what smsdeliver prints, whatever its arguments are. -/

namespace Verif.Props
open Verif.Model Verif.Model.Collector Verif.Proofs
open Verif.Spec.Deliver
open Verif.Model.SmsDeliver (Line)

private theorem octets_ok (pm : Bool) (a b : Bytes) : SmsDeliver.octets pm a = .ok b ↔ Octets pm a b := by
  unfold SmsDeliver.octets Octets
  cases h : Hex.DecodeString a with
  | error e => simp [bind, Except.bind]
  | ok raw =>
    simp only [ok_bind]
    cases pm with
    | false => simp [pure, Except.pure]
    | true =>
      simp only [if_true]
      cases h' : PDU.UnmarshalBinary raw with
      | error e => simp [bind, Except.bind, h']
      | ok p => simp [bind, Except.bind, pure, Except.pure, h']

private theorem octets_err (pm : Bool) (a : Bytes) (e : Err) :
    SmsDeliver.octets pm a = .error (.err e) ↔ Unreadable pm a e := by
  unfold SmsDeliver.octets Unreadable
  cases h : Hex.DecodeString a with
  | error e' => simp [bind, Except.bind]
  | ok raw =>
    simp only [ok_bind]
    cases pm with
    | false => simp [pure, Except.pure]
    | true =>
      simp only [if_true]
      cases h' : PDU.UnmarshalBinary raw with
      | error e => simp [bind, Except.bind, h']
      | ok p => simp [bind, Except.bind, pure, Except.pure, h']

private theorem split_nil (d : List (Option Ptr)) :
    (∃ segs : List Ptr, d = segs.map some) ∨ ∃ (segs : List Ptr) (later : _), d = segs.map some ++ none :: later := by
  induction d with
  | nil => exact .inl ⟨[], rfl⟩
  | cons x d ih =>
    cases x with
    | none => exact .inr ⟨[], d, rfl⟩
    | some p =>
      rcases ih with ⟨segs, rfl⟩ | ⟨segs, later, rfl⟩
      · exact .inl ⟨p :: segs, rfl⟩
      · exact .inr ⟨p :: segs, later, rfl⟩

private theorem take_all (segs : List Ptr) (later : List (Option Ptr)) :
    ((segs.map some ++ none :: later).takeWhile Option.isSome).filterMap (fun p => p.map (·.pdu)) =
      segs.map (·.pdu) ∧
    ((segs.map some).takeWhile Option.isSome).filterMap (fun p : Option Ptr => p.map (·.pdu)) = segs.map (·.pdu) := by
  induction segs with
  | nil => exact ⟨rfl, rfl⟩
  | cons p segs ih =>
    constructor
    · simpa using ih.1
    · simpa using ih.2

private def reportWith (pre : List Line) (d : List (Option Ptr)) : M (List Line) :=
  if d = [] then .ok pre
  else match SmsDeliver.decodePtrs d with
    | .error (.err e) => .ok (pre ++ [.decodeError e])
    | .error (.panic k) => .error (.panic k)
    | .ok msg => do
      let p0 ← idx d 0
      match p0 with
      | none => panicM .nil
      | some p => return pre ++ [.message p.pdu.OA.Number msg]

private theorem report_with (d : List (Option Ptr)) (err : Option Err) :
    SmsDeliver.report d err = reportWith (err.map Line.collectError).toList d := by cases err <;> rfl

private theorem ptrs_all (segs : List Ptr) :
    SmsDeliver.decodePtrs (segs.map some) = Sms.Decode (segs.map (·.pdu)) [] := by
  unfold SmsDeliver.decodePtrs
  simp only [(take_all segs []).2]
  rw [if_pos (by simp)]

private theorem ptrs_nil (segs : List Ptr) (later : List (Option Ptr)) (f : Fault)
    (h : SmsDeliver.decodePtrs (segs.map some ++ none :: later) = .error f) :
    f = .panic .nil ∨ Sms.Decode (segs.map (·.pdu)) [] = .error f ∧ ∀ b, f ≠ .err (.ucs2Dangling b) := by
  unfold SmsDeliver.decodePtrs at h
  simp only [(take_all segs later).1] at h
  rw [if_neg (by simp)] at h
  split at h
  · exact .inl (Except.error.inj h).symm
  · exact .inl (Except.error.inj h).symm
  · rename_i e hn hd
    cases h
    exact .inr ⟨hd, fun b hb => hn b hb⟩

private theorem ptrs_nil_ok (segs : List Ptr) (later : List (Option Ptr)) (msg : Bytes) :
    SmsDeliver.decodePtrs (segs.map some ++ none :: later) ≠ .ok msg := by
  unfold SmsDeliver.decodePtrs
  simp only [(take_all segs later).1]
  rw [if_neg (by simp)]
  split
  · intro h; cases h
  · intro h; cases h
  · intro h; cases h

private theorem place_returned {s s' : State} {ptr : Ptr} {key : Bytes} {keyErr : Option Err}
    {segments seqno p : Nat} {o : Output} (h : place s ptr key keyErr segments seqno p = .ok (s', o)) :
    ∃ d err, o = .returned d err := by
  unfold place at h
  obtain ⟨pipe, -, h⟩ := bind_eq_ok.1 h
  split at h
  · dsimp only at h
    split at h
    · cases h; exact ⟨_, _, rfl⟩
    · split at h <;> (cases h; exact ⟨_, _, rfl⟩)
  · cases h

/-- Every call of `Collect` returns. -/
theorem collect_returns {s s' : State} {t : TPDU} {o : Output} (h : Collect s t = .ok (s', o)) :
    ∃ d err, o = .returned d err := by
  unfold Collect at h
  dsimp only at h
  split at h
  · cases h; exact ⟨_, _, rfl⟩
  · split at h
    · cases h; exact ⟨_, _, rfl⟩
    · split at h
      · cases h; exact ⟨_, _, rfl⟩
      · split at h
        · cases h; exact ⟨_, _, rfl⟩
        · split at h
          · exact place_returned h
          · obtain ⟨pipe, -, h⟩ := bind_eq_ok.1 h
            obtain ⟨cur, -, h⟩ := bind_eq_ok.1 h
            split at h
            · cases h; exact ⟨_, _, rfl⟩
            · split at h
              · exact place_returned h
              · split at h
                · exact place_returned h
                · exact place_returned h

private theorem report_said (d : List (Option Ptr)) (err : Option Err) (lines : List Line) :
    SmsDeliver.report d err = .ok lines ↔ Said (.returned d err) lines := by
  rw [report_with]
  show _ ↔ ∃ rest, lines = (err.map Line.collectError).toList ++ rest ∧ Told d rest
  unfold reportWith
  generalize (err.map Line.collectError).toList = pre
  constructor
  · intro h
    by_cases h0 : d = []
    · rw [if_pos h0] at h
      subst h0
      exact ⟨[], by simpa using (Except.ok.inj h).symm, .nothing⟩
    · rw [if_neg h0] at h
      rcases split_nil d with ⟨segs, rfl⟩ | ⟨segs, later, rfl⟩
      · cases segs with
        | nil => exact absurd rfl h0
        | cons p segs =>
          rw [ptrs_all] at h
          cases hD : Sms.Decode ((p :: segs).map (·.pdu)) [] with
          | ok text =>
            rw [hD] at h
            exact ⟨_, (Except.ok.inj h).symm, .message p segs text hD⟩
          | error f =>
            rw [hD] at h
            cases f with
            | err e => exact ⟨_, (Except.ok.inj h).symm, .error p segs e hD⟩
            | panic k => cases h
      · cases hd : SmsDeliver.decodePtrs (segs.map some ++ none :: later) with
        | ok msg => exact absurd hd (ptrs_nil_ok segs later msg)
        | error f =>
          rw [hd] at h
          cases f with
          | panic k => cases h
          | err e =>
            rcases ptrs_nil segs later _ hd with h' | ⟨h1, h2⟩
            · cases h'
            · exact ⟨_, (Except.ok.inj h).symm, .missing segs later e h1 (fun b hb => h2 b (by rw [hb]))⟩
  · rintro ⟨rest, rfl, ht⟩
    cases ht with
    | nothing => simp
    | message p segs text hD => rw [if_neg (by simp), ptrs_all, hD]; rfl
    | error p segs e hD => rw [if_neg (by simp), ptrs_all, hD]
    | missing segs later e hD hn =>
      have : SmsDeliver.decodePtrs (segs.map some ++ none :: later) = .error (.err e) := by
        unfold SmsDeliver.decodePtrs
        simp only [(take_all segs later).1, hD]
        rw [if_neg (by simp)]
        cases e <;> first | exact absurd rfl (hn _) | rfl
      rw [if_neg (by simp), this]

private def Stepped (s s1 : State) : Item → Prop
  | .broken _ => s1 = s
  | .collected t ls => ∃ o, Collect s t = .ok (s1, o) ∧ Said o ls

private theorem loop_prints (pm : Bool) : ∀ (args : List Bytes) (s : State) (lines : List Line),
    SmsDeliver.loop pm s args = .ok lines ↔ Prints pm s args lines := by
  intro args
  induction args with
  | nil =>
    intro s lines
    rw [SmsDeliver.loop]
    constructor
    · intro h
      exact ⟨[], [], [], s, [], rfl, rfl, by simp, rfl, by simp, .inl ⟨rfl, by simpa [waiting] using (Except.ok.inj h).symm⟩⟩
    · rintro ⟨firsts, later, items, s', os, he, hl, -, hr, -, h⟩
      obtain ⟨rfl, rfl⟩ := List.append_eq_nil_iff.1 he.symm
      have : items = [] := List.eq_nil_of_length_eq_zero hl.symm
      subst this
      cases hr
      rcases h with ⟨-, rfl⟩ | ⟨_, _, _, h, _⟩
      · rfl
      · cases h
  | cons a args ih =>
    intro s lines
    rw [SmsDeliver.loop]
    cases ho : SmsDeliver.octets pm a with
    | error f =>
      cases f with
      | panic k =>
        refine ⟨fun h => (by cases h), ?_⟩
        rintro ⟨firsts, later, items, s', os, he, hl, hof, hr, -, h⟩
        exfalso
        cases firsts with
        | nil =>
          rcases h with ⟨rfl, -⟩ | ⟨a', l, e, rfl, hu, -⟩
          · cases he
          · obtain ⟨rfl, rfl⟩ := List.cons.inj he
            rw [← octets_err, ho] at hu; cases hu
        | cons f firsts =>
          obtain ⟨rfl, -⟩ := List.cons.inj he
          cases items with
          | nil => cases hl
          | cons i items =>
            have := hof (a, i) (by simp)
            cases i <;> (obtain ⟨b, hb, -⟩ := this; rw [← octets_ok, ho] at hb; cases hb)
      | err e =>
        have hu := (octets_err pm a e).1 ho
        constructor
        · intro h
          exact ⟨[], a :: args, [], s, [], rfl, rfl, by simp, rfl, by simp,
            .inr ⟨a, args, e, rfl, hu, (Except.ok.inj h).symm⟩⟩
        · rintro ⟨firsts, later, items, s', os, he, hl, hof, hr, -, h⟩
          cases firsts with
          | nil =>
            have : items = [] := List.eq_nil_of_length_eq_zero hl.symm
            subst this
            rcases h with ⟨rfl, -⟩ | ⟨a', l, e', rfl, hu', rfl⟩
            · cases he
            · obtain ⟨rfl, rfl⟩ := List.cons.inj he
              rw [← octets_err, ho] at hu'
              cases hu'; rfl
          | cons f firsts =>
            obtain ⟨rfl, -⟩ := List.cons.inj he
            cases items with
            | nil => cases hl
            | cons i items =>
              have := hof (a, i) (by simp)
              cases i <;> (obtain ⟨b, hb, -⟩ := this; rw [← octets_ok, ho] at hb; cases hb)
    | ok b =>
      have hb := (octets_ok pm a b).1 ho
      have notun : ∀ e, ¬ Unreadable pm a e := fun e h => by
        rw [← octets_err, ho] at h; cases h
      -- an output of the arguments begins with the item of the first
      have first : Prints pm s (a :: args) lines → ∃ (i : Item) (rest : List Line) (s1 : State), i.Of pm a ∧
          lines = i.lines ++ rest ∧ Stepped s s1 i ∧ Prints pm s1 args rest := by
        rintro ⟨firsts, later, items, s', os, he, hl, hof, hr, hs, h⟩
        cases firsts with
        | nil =>
          rcases h with ⟨rfl, -⟩ | ⟨a', l, e, rfl, hu, -⟩
          · cases he
          · obtain ⟨rfl, rfl⟩ := List.cons.inj he
            exact absurd hu (notun e)
        | cons f firsts =>
          obtain ⟨rfl, rfl⟩ := List.cons.inj he
          cases items with
          | nil => cases hl
          | cons i items =>
            have hl' : firsts.length = items.length := by simpa using hl
            have hof' : ∀ p ∈ firsts.zip items, p.2.Of pm p.1 := fun p hp => hof p (by simp [hp])
            have hi := hof (a, i) (by simp)
            have tail : ∀ s1 os1, run s1 ((items.filterMap Item.tpdu).map fun t => .collect t.1) = .ok (s', os1) →
                (∀ p ∈ os1.zip (items.filterMap Item.tpdu), Said p.1 p.2.2) →
                ∃ rest, lines = i.lines ++ rest ∧ Prints pm s1 (firsts ++ later) rest := by
              intro s1 os1 h1 h2
              rcases h with ⟨rfl, rfl⟩ | ⟨a', l, e, rfl, hu, rfl⟩
              · exact ⟨_, by rw [List.flatMap_cons, List.append_assoc],
                  ⟨firsts, [], items, s', os1, rfl, hl', hof', h1, h2, .inl ⟨rfl, rfl⟩⟩⟩
              · exact ⟨_, by rw [List.flatMap_cons, List.append_assoc],
                  ⟨firsts, _, items, s', os1, rfl, hl', hof', h1, h2, .inr ⟨a', l, e, rfl, hu, rfl⟩⟩⟩
            cases i with
            | broken e =>
              obtain ⟨rest, h1, h2⟩ := tail s os hr hs
              exact ⟨.broken e, rest, s, hi, h1, rfl, h2⟩
            | collected t ls =>
              replace hr : run s (.collect t :: (items.filterMap Item.tpdu).map fun t => .collect t.1) = .ok (s', os) := hr
              rw [run] at hr
              obtain ⟨⟨s1, o⟩, hc, hr⟩ := bind_eq_ok.1 hr
              obtain ⟨⟨s2, os1⟩, hr1, hr⟩ := bind_eq_ok.1 hr
              cases hr
              replace hs : ∀ p ∈ (o :: os1).zip ((t, ls) :: items.filterMap Item.tpdu), Said p.1 p.2.2 := hs
              obtain ⟨rest, h1, h2⟩ := tail s1 os1 hr1 (fun p hp => hs p (by simp [hp]))
              exact ⟨.collected t ls, rest, s1, hi, h1, ⟨o, hc, hs (o, (t, ls)) (by simp)⟩, h2⟩
      have back : ∀ (i : Item) (rest : List Line) (s1 : State), i.Of pm a → Stepped s s1 i → Prints pm s1 args rest →
          Prints pm s (a :: args) (i.lines ++ rest) := by
        rintro i rest s1 hi h1 ⟨firsts, later, items, s', os, rfl, hl, hof, hr, hs, h⟩
        have hof' : ∀ p ∈ (a :: firsts).zip (i :: items), p.2.Of pm p.1 := by
          intro p hp
          rcases List.mem_cons.1 hp with rfl | hp
          · exact hi
          · exact hof p hp
        have last : (later = [] ∧ i.lines ++ rest = (i :: items).flatMap Item.lines ++ waiting s') ∨
            ∃ a l e, later = a :: l ∧ Unreadable pm a e ∧
              i.lines ++ rest = (i :: items).flatMap Item.lines ++ [.fatal e] := by
          rcases h with ⟨h, rfl⟩ | ⟨a', l, e, h, hu, rfl⟩
          · exact .inl ⟨h, by rw [List.flatMap_cons, List.append_assoc]⟩
          · exact .inr ⟨a', l, e, h, hu, by rw [List.flatMap_cons, List.append_assoc]⟩
        cases i with
        | broken e =>
          subst h1
          exact ⟨a :: firsts, later, .broken e :: items, s', os, rfl, by simpa using hl, hof', hr, hs, last⟩
        | collected t ls =>
          obtain ⟨o, hc, hsaid⟩ := h1
          refine ⟨a :: firsts, later, .collected t ls :: items, s', o :: os, rfl, by simpa using hl, hof', ?_, ?_, last⟩
          · show run s (.collect t :: (items.filterMap Item.tpdu).map fun t => .collect t.1) = _
            rw [run]
            show (do let (s, o) ← Collect s t; _) = _
            rw [hc]
            show (do let (s, os) ← run s1 _; _) = _
            rw [hr]; rfl
          · intro p hp
            replace hp : p ∈ (o :: os).zip ((t, ls) :: items.filterMap Item.tpdu) := hp
            rcases List.mem_cons.1 hp with rfl | hp
            · exact hsaid
            · exact hs p hp
      have same : ∀ b', Octets pm a b' → b' = b := fun b' h => by
        rw [← octets_ok, ho] at h; exact (Except.ok.inj h).symm
      dsimp only
      cases hu : Sms.Unmarshal b MT with
      | error f =>
        cases f with
        | panic k =>
          refine ⟨fun h => (by cases h), fun h => ?_⟩
          obtain ⟨i, _, _, hi, -⟩ := first h
          cases i <;> (obtain ⟨b', h1, h2⟩ := hi; rw [same b' h1, hu] at h2; cases h2)
        | err e =>
          constructor
          · intro h
            replace h : (SmsDeliver.loop pm s args >>= fun rest => pure (.unmarshalError e :: rest)) = .ok lines := h
            obtain ⟨rest, h1, h2⟩ := bind_eq_ok.1 h
            cases h2
            exact back (.broken e) rest s ⟨b, hb, hu⟩ rfl ((ih s rest).1 h1)
          · intro h
            obtain ⟨i, rest, s1, hi, rfl, hs1, hp⟩ := first h
            cases i with
            | broken e' =>
              obtain ⟨b', h1, h2⟩ := hi; rw [same b' h1, hu] at h2; cases h2
              cases hs1
              show (SmsDeliver.loop pm _ args >>= fun rest => pure (.unmarshalError e :: rest)) = _
              rw [(ih _ rest).2 hp]; rfl
            | collected t ls => obtain ⟨b', h1, h2⟩ := hi; rw [same b' h1, hu] at h2; cases h2
      | ok t =>
        constructor
        · intro h
          obtain ⟨⟨s1, o⟩, hc, h⟩ := bind_eq_ok.1 h
          cases o with
          | returned d err =>
            obtain ⟨ls, h1, h⟩ := bind_eq_ok.1 h
            obtain ⟨rest, h2, h⟩ := bind_eq_ok.1 h
            cases h
            exact back (.collected t ls) rest s1 ⟨b, hb, hu⟩ ⟨_, hc, (report_said d err ls).1 h1⟩ ((ih s1 rest).1 h2)
          | silent => obtain ⟨_, _, h'⟩ := collect_returns hc; cases h'
          | handled d => obtain ⟨_, _, h'⟩ := collect_returns hc; cases h'
        · intro h
          obtain ⟨i, rest, s1, hi, rfl, hs1, hp⟩ := first h
          cases i with
          | broken e' => obtain ⟨b', h1, h2⟩ := hi; rw [same b' h1, hu] at h2; cases h2
          | collected t' ls =>
            obtain ⟨b', h1, h2⟩ := hi; rw [same b' h1, hu] at h2; cases h2
            obtain ⟨o, hc, hsaid⟩ := hs1
            dsimp only
            rw [hc]
            cases o with
            | returned d err =>
              show (do
                let lines ← SmsDeliver.report d err
                let rest ← SmsDeliver.loop pm s1 args
                return lines ++ rest : M _) = _
              rw [(report_said d err ls).2 hsaid, ok_bind, (ih s1 rest).2 hp]; rfl
            | silent => exact absurd hsaid (by simp [Said])
            | handled d => exact absurd hsaid (by simp [Said])

/-- C112: exactly what smsdeliver prints.  It ends without a panic with the lines that `Prints` says, and with
no others. -/
theorem C112_exact (pm : Bool) (args : List Bytes) (lines : List Line) :
    SmsDeliver.main pm args = .ok lines ↔ Prints pm (New false false) args lines :=
  loop_prints pm args _ lines

/-- C112: an argument that is no TPDU adds its line and changes nothing else. -/
theorem C112_skip (pm : Bool) (before after : List Bytes) (a b : Bytes) (e : Err) (ha : Octets pm a b)
    (hb : Sms.Unmarshal b MT = .error (.err e)) (hr : ∀ x ∈ before, ∀ e, ¬ Unreadable pm x e) (lines : List Line) :
    SmsDeliver.main pm (before ++ a :: after) = .ok lines →
      ∃ l1 l2, lines = l1 ++ .unmarshalError e :: l2 ∧ SmsDeliver.main pm (before ++ after) = .ok (l1 ++ l2) := by
  unfold SmsDeliver.main
  generalize New false false = s
  induction before generalizing s lines with
  | nil =>
    intro h
    rw [List.nil_append, SmsDeliver.loop, (octets_ok pm a b).2 ha] at h
    dsimp only at h
    rw [hb] at h
    obtain ⟨rest, h1, h2⟩ := bind_eq_ok.1 h
    cases h2
    exact ⟨[], rest, rfl, h1⟩
  | cons x before ih =>
    intro h
    rw [List.cons_append, SmsDeliver.loop] at h
    rw [List.cons_append, SmsDeliver.loop]
    have hx := hr x (by simp)
    have ih := ih (fun y hy => hr y (by simp [hy]))
    cases ho : SmsDeliver.octets pm x with
    | error f =>
      cases f with
      | err e' => exact absurd ((octets_err pm x e').1 ho) (hx e')
      | panic k => rw [ho] at h; cases h
    | ok tb =>
      rw [ho] at h
      dsimp only at h ⊢
      cases hu : Sms.Unmarshal tb MT with
      | error f =>
        rw [hu] at h
        cases f with
        | panic k => cases h
        | err e' =>
          obtain ⟨rest, h1, h2⟩ := bind_eq_ok.1 h
          cases h2
          obtain ⟨l1, l2, rfl, h3⟩ := ih rest s h1
          refine ⟨.unmarshalError e' :: l1, l2, rfl, ?_⟩
          dsimp only
          rw [h3]; rfl
      | ok t =>
        rw [hu] at h
        obtain ⟨⟨s1, o⟩, hc, h⟩ := bind_eq_ok.1 h
        obtain ⟨d, err, rfl⟩ := collect_returns hc
        obtain ⟨ls, h1, h⟩ := bind_eq_ok.1 h
        obtain ⟨rest, h2, h⟩ := bind_eq_ok.1 h
        cases h
        obtain ⟨l1, l2, rfl, h3⟩ := ih rest s1 h2
        refine ⟨ls ++ l1, l2, by simp, ?_⟩
        dsimp only
        rw [hc]
        show (do
          let lines ← SmsDeliver.report d err
          let rest ← SmsDeliver.loop pm s1 (before ++ after)
          return lines ++ rest : M _) = _
        rw [h1, ok_bind, h3]
        show Except.ok _ = _
        rw [List.append_assoc]

/-- C112: after an argument that is not in hex nothing is done: no message, and nothing about what is incomplete. -/
theorem C112_fatal (pm : Bool) (before after : List Bytes) (a : Bytes) (e : Err) (ha : Unreadable pm a e)
    (hr : ∀ x ∈ before, ∃ b, Octets pm x b) (lines : List Line)
    (h : SmsDeliver.main pm (before ++ a :: after) = .ok lines) :
    ∃ l w, lines = l ++ [.fatal e] ∧ SmsDeliver.main pm before = .ok (l ++ w) ∧
      ∀ x ∈ w, ∃ k segs, x = .incomplete k segs := by
  obtain ⟨firsts, later, items, s, os, he, hl, hof, hrun, hs, hlast⟩ := (C112_exact _ _ _).1 h
  have hread : ∀ f ∈ firsts, ∀ e, ¬ Unreadable pm f e := by
    intro f hf e' hu
    obtain ⟨n, hn, rfl⟩ := List.mem_iff_getElem.1 hf
    have := hof (firsts[n], items[n]'(by omega)) (by
      rw [List.mem_iff_getElem]; exact ⟨n, by simp; omega, by simp⟩)
    cases hi : items[n]'(by omega) <;>
      (rw [hi] at this; obtain ⟨b, hb, -⟩ := this
       rw [← octets_ok] at hb; rw [← octets_err, hb] at hu; cases hu)
  have nofirst : ∀ x ∈ before, ∀ e, ¬ Unreadable pm x e := by
    intro x hx e' hu
    obtain ⟨b, hb⟩ := hr x hx
    rw [← octets_ok] at hb; rw [← octets_err, hb] at hu; cases hu
  -- the arguments read are those before
  have key : firsts = before ∧ later = a :: after := by
    rcases hlast with ⟨rfl, -⟩ | ⟨a', l, e', rfl, hu, -⟩
    · rw [List.append_nil] at he
      exact absurd ha (hread a (by rw [← he]; simp) e)
    · rcases Nat.lt_trichotomy firsts.length before.length with hlt | heq | hgt
      · have : a' ∈ before := by
          have h1 := congrArg (fun l => l[firsts.length]?) he
          simp only [List.getElem?_append_left hlt] at h1
          rw [List.getElem?_append_right (Nat.le_refl _)] at h1
          simp only [Nat.sub_self, List.getElem?_cons_zero] at h1
          exact List.mem_of_getElem? h1
        exact absurd hu (nofirst a' this e')
      · exact (List.append_inj he heq.symm).imp Eq.symm Eq.symm
      · have : a ∈ firsts := by
          have h1 := congrArg (fun l => l[before.length]?) he
          simp only [List.getElem?_append_left hgt] at h1
          rw [List.getElem?_append_right (Nat.le_refl _)] at h1
          simp only [Nat.sub_self, List.getElem?_cons_zero] at h1
          exact List.mem_of_getElem? h1.symm
        exact absurd ha (hread a this e)
  obtain ⟨rfl, rfl⟩ := key
  rcases hlast with ⟨h, -⟩ | ⟨a', l, e', h1, hu, rfl⟩
  · cases h
  · obtain ⟨rfl, -⟩ := List.cons.inj h1
    rw [← octets_err] at hu ha
    rw [ha] at hu
    cases hu
    refine ⟨_, waiting s, rfl, (C112_exact _ _ _).2 ⟨firsts, [], items, s, os, by simp, hl, hof, hrun, hs, .inl ⟨rfl, rfl⟩⟩, ?_⟩
    intro x hx
    obtain ⟨kp, -, rfl⟩ := List.mem_map.1 hx
    exact ⟨_, _, rfl⟩

/-- A TPDU cut short, one that is whole, and one that is not in hex. -/
example : SmsDeliver.main false [b!"0001", b!"000191f10000111010000000000161", b!"0x", b!"00"] =
    .ok [.unmarshalError (.decode "SmsDeliver.oa.addr" 1 .underflow), .message b!"+1" b!"a", .fatal (.hexInvalidByte 0x78)] := by
  decide +kernel

end Verif.Props
