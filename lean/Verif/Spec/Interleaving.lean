import Verif.Spec.Trace

/-!
# Specification: interleavings of the calls to a coupler

Parts of an application that use different channels or serial modules, and that agree on when the
cycles happen, can have their calls interleaved in any way.
-/

namespace Ur20.Spec

/-- What a call that is not a cycle is about: an output channel, the bytes received by a serial
module or the bytes sent by it. -/
inductive Target where
  | channel (a : Address)
  | received (n : Nat)
  | sent (n : Nat)
  deriving DecidableEq

/-- The target of a call. A cycle has none. -/
def COp.target : COp → Option Target
  | .setOutput a _ => some (.channel a)
  | .next _ _ => none
  | .read n _ => some (.received n)
  | .write n _ => some (.sent n)

/-- The call has the target `t` or is a cycle. -/
def COp.concerns (t : Target) (op : COp) : Bool := op.target = none ∨ op.target = some t

/-- Two histories have, for each target, the same calls in the same order, between the same
cycles. -/
def Interleaved (xs ys : List COp) : Prop :=
  ∀ t, xs.filter (COp.concerns t) = ys.filter (COp.concerns t)

/-- What is seen of the calls with the target `t` and of the cycles in a history. -/
def seenOf (oc : Bool) (t : Target) (c : Coupler) : List COp → List Seen
  | [] => []
  | op :: ops =>
    (if op.concerns t then [⟨(call oc c op).2, (op.apply oc c).inputs, (op.apply oc c).outputs⟩]
      else []) ++ seenOf oc t (op.apply oc c) ops

end Ur20.Spec
