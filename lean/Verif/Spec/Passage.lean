import Verif.Spec.Timed

/-! Messages that pass through a network to a Collector with a reassembly timeout, in real time. -/

namespace Verif.Spec.Timed
open Verif.Model Verif.Model.Collector Verif.Spec

/-- The TPDUs of a message: one that is not one of several, or all the segments in sequence. -/
def MessageOf (qs : List TPDU) : Prop := (∃ q, qs = [q] ∧ ¬ MultiPart q) ∨ ∃ m, SegmentsOf m qs

/-- The messages have the same type, other party, reference and number of segments, so that segments of one are
taken for segments of the other. -/
def Alike (qs qs' : List TPDU) : Prop := ∃ m, (∃ p ∈ qs, (segOf m p).isSome) ∧ ∃ q ∈ qs', (segOf m q).isSome

/-- Arrivals within less than `d`. -/
def Together (d : Int) (g : List (Int × TPDU)) : Prop := ∀ x ∈ g, ∀ y ∈ g, y.1 < x.1 + d

/-- Two groups of arrivals, one more than `lag` after the other. -/
def Apart (lag : Int) (a b : List (Int × TPDU)) : Prop :=
  (∀ x ∈ a, ∀ y ∈ b, x.1 + lag < y.1) ∨ (∀ x ∈ a, ∀ y ∈ b, y.1 + lag < x.1)

/-- Messages `msgs` are sent, and what arrives of message `i` at the Collector, each TPDU any number of times or
never, is `got[i]`.  What arrives of a message arrives within less than the timeout, and messages that are alike
are more than `lag` apart, where timers go off no earlier than the timeout and are dealt with no later than `lag`
after they were set. -/
structure Passage (d lag : Int) (handler : Bool) (msgs : List (List TPDU)) (got : List (List (Int × TPDU))) (h : History) : Prop where
  lags : 0 ≤ lag ∧ d ≤ lag
  opened : ∀ e ∈ events h, e ≠ .close
  ordered : Ordered h
  timely : Timely d (New true handler) [] h
  prompt : Prompt [.armed, .fired] lag (New true handler) [] h
  arrive : (arrivals h).Perm got.flatten
  length : got.length = msgs.length
  from_ : ∀ (i : Nat) qs g, msgs[i]? = some qs → got[i]? = some g → ∀ x ∈ g, x.2 ∈ qs
  together : ∀ (i : Nat) qs g, msgs[i]? = some qs → got[i]? = some g → 2 ≤ qs.length → Together d g
  apart : ∀ (i j : Nat) qs qs' g g', i < j → msgs[i]? = some qs → msgs[j]? = some qs' → got[i]? = some g → got[j]? = some g' →
    Alike qs qs' → Apart lag g g'

/-- How many of the messages from `i` on and before `j` have more than one TPDU. -/
def multis (msgs : List (List TPDU)) (i j : Nat) : Nat := ((msgs.drop i).take (j - i)).countP (fun qs => 2 ≤ qs.length)

/-- As `Passage`, but for messages that are more than `lag` apart only if they have as many TPDUs as each other, more
than one, and 256 or a multiple of 256 messages of more than one TPDU are sent from the one on and before the other. -/
structure Paced (d lag : Int) (handler : Bool) (msgs : List (List TPDU)) (got : List (List (Int × TPDU))) (h : History) : Prop where
  lags : 0 ≤ lag ∧ d ≤ lag
  opened : ∀ e ∈ events h, e ≠ .close
  ordered : Ordered h
  timely : Timely d (New true handler) [] h
  prompt : Prompt [.armed, .fired] lag (New true handler) [] h
  arrive : (arrivals h).Perm got.flatten
  length : got.length = msgs.length
  from_ : ∀ (i : Nat) qs g, msgs[i]? = some qs → got[i]? = some g → ∀ x ∈ g, x.2 ∈ qs
  together : ∀ (i : Nat) qs g, msgs[i]? = some qs → got[i]? = some g → 2 ≤ qs.length → Together d g
  apart : ∀ (i j : Nat) qs qs' g g', i < j → msgs[i]? = some qs → msgs[j]? = some qs' → got[i]? = some g → got[j]? = some g' →
    2 ≤ qs.length → qs.length = qs'.length → 256 ≤ multis msgs i j → 256 ∣ multis msgs i j → Apart lag g g'

end Verif.Spec.Timed
