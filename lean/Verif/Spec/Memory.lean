import Verif.Spec.Account

/-!
# Specification: what a coupler keeps

How much a coupler can hold between calls.
-/

namespace Ur20.Spec

/-- The addresses of the channels of a module list. -/
def channelsOf (modules : List ModuleType) : List Address :=
  modules.zipIdx.flatMap fun p => (List.range p.1.channelCount).map fun k => ⟨p.2, k⟩

/-- Exactly `n` bytes are waiting to be read from module `j`: a read with a buffer of `k` bytes
returns `min k n` bytes. -/
def Waiting (c : Coupler) (j n : Nat) : Prop :=
  ∀ k, ∃ d b, c.read j k = .ok (d, some b) ∧ b.length = min k n

/-- Before each cycle, the application has read from module `j` with a buffer of at least `cap`
bytes since the cycle before it; `drained` tells whether it has done so since the last cycle. -/
def PromptReads (j cap : Nat) : Bool → List COp → Prop
  | _, [] => True
  | drained, .next _ _ :: ops => drained = true ∧ PromptReads j cap false ops
  | drained, .read n k :: ops => PromptReads j cap (drained || (n == j && cap ≤ k)) ops
  | drained, _ :: ops => PromptReads j cap drained ops

end Ur20.Spec
