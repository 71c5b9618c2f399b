import Verif.Lemmas.Imperative
import Verif.Props.SerialCoupler

/-!
# C97: what an application sees does not depend on hash map iteration

`Model/Imperative.lean` is a second model of the coupler, statement by statement, whose loops over
hash maps visit the entries in an order given from outside.
-/

namespace Ur20

open Spec

/-- The statement-by-statement model refines the model all other properties are about: construction
has the same outcome and, whatever the orders of iteration are, every history of calls shows the
same results, inputs and outputs. -/
theorem C97_refines (oc : Bool) (cfg : CouplerConfig) :
    match Coupler.new cfg with
    | .ok d => ∃ c, Imp.new cfg = .ok c ∧ ∀ (ord : Nat → Imp.Orders) (ops : List COp),
        Imp.trace oc ord 0 c ops = trace oc d ops
    | .err e => Imp.new cfg = .err e
    | .panic => Imp.new cfg = .panic := by
  have h := Imp.new_same cfg
  cases hn : Coupler.new cfg with
  | err e =>
    rw [hn] at h
    exact h
  | panic =>
    rw [hn] at h
    exact h
  | ok d =>
    rw [hn] at h
    obtain ⟨c, h1, h2⟩ := h
    exact ⟨c, h1, fun ord ops => Imp.trace_same oc ord ops 0 h2⟩

/-- Two runs of the same history, with different orders of iteration in every call, show the same. -/
theorem C97_deterministic (oc : Bool) (cfg : CouplerConfig) {c : Imp.Coupler}
    (hc : Imp.new cfg = .ok c) (ord ord' : Nat → Imp.Orders) (ops : List COp) :
    Imp.trace oc ord 0 c ops = Imp.trace oc ord' 0 c ops := by
  have h := C97_refines oc cfg
  cases hn : Coupler.new cfg with
  | err e =>
    rw [hn] at h
    rw [h] at hc
    cases hc
  | panic =>
    rw [hn] at h
    rw [h] at hc
    cases hc
  | ok d =>
    rw [hn] at h
    obtain ⟨c', h1, h2⟩ := h
    rw [h1] at hc
    cases hc
    rw [h2, h2]

/-- The functions that index into register lists never do so out of bounds, and agree with the
model all other properties are about. -/
theorem C97_index_loops (ws : List Word) (ms : List (Module × ModuleOffset))
    (values : List (List ChannelValue)) :
    Imp.offsetsOfProcessData ws = .ok (offsetsOfProcessData ws) ∧
      Imp.moduleListFromRegisters ws = moduleListFromRegisters ws ∧
      Imp.processOutputValues ms values = processOutputValues ms values :=
  ⟨Imp.offsetsOfProcessData_eq ws, Imp.moduleListFromRegisters_eq ws,
    Imp.processOutputValues_eq ms values⟩

/-- Entries in the order of the map. -/
def exForward : Imp.Orders := ⟨id, id, fun _ => .refl _, fun _ => .refl _⟩

/-- Entries in the reverse order. -/
def exBackward : Imp.Orders :=
  ⟨List.reverse, List.reverse, List.reverse_perm, List.reverse_perm⟩

/-- A write, a cycle in which both serial modules show bytes they sent and the first one bytes it
receives, a read, and two calls that fail. -/
def exHistory : List COp :=
  [.write 0 [7#8], .next (0x0109#16 :: 0x0041#16 :: List.replicate 6 0#16) exTwoPo, .read 0 5,
    .setOutput ⟨9, 0⟩ .none, .next [] []]

/-- The hypothesis of `C97_deterministic` holds, and both maps have two entries in the cycle, so the
orders differ. -/
example : (match Imp.new exTwo with
    | .ok c => Imp.trace true (fun k => if k = 1 then exForward else exBackward) 0 c exHistory
    | _ => []) =
    [⟨.write (some 1), [], []⟩,
      ⟨.next (.ok [0x002b#16, 0#16, 0#16, 0#16, 0x0013#16, 0#16, 0#16, 0#16]),
        [[.bytes [0x41#8]], [.none]], [[.bytes [0x41#8]], [.bytes [0x42#8]]]⟩,
      ⟨.read (.ok (some [])), [[.bytes [0x41#8]], [.none]],
        [[.bytes [0x41#8]], [.bytes [0x42#8]]]⟩,
      ⟨.setOutput (.err .address), [[.bytes [0x41#8]], [.none]],
        [[.bytes [0x41#8]], [.bytes [0x42#8]]]⟩,
      ⟨.next (.err .bufferLength), [[.bytes [0x41#8]], [.none]],
        [[.bytes [0x41#8]], [.bytes [0x42#8]]]⟩] := by decide +kernel

end Ur20
