import Verif.Spec.Coupler
import Verif.Model.Imperative

/-!
# Specification: what an application sees of a coupler

The results of a history of calls, and what `inputs()` and `outputs()` show after each of them, for
both models of the coupler.
-/

namespace Ur20.Spec

/-- The result of a call. -/
inductive Ret where
  | setOutput (r : Res Unit)
  | next (r : Res (List Word))
  | read (r : Res (Option (List Byte)))
  | write (n : Option Nat)
  deriving DecidableEq, Repr

/-- The call panicked. -/
def Ret.panicked : Ret → Bool
  | .setOutput .panic | .next .panic | .read .panic => true
  | _ => false

/-- What an application sees of a call: its result, and `inputs()` and `outputs()` after it. -/
structure Seen where
  result : Ret
  inputs : List (List ChannelValue)
  outputs : List (List ChannelValue)
  deriving DecidableEq, Repr

/-- A call of the model of `Model/Coupler.lean`: the state after it and its result. -/
def call (oc : Bool) (c : Coupler) : COp → Coupler × Ret
  | .setOutput a v => ((c.setOutput a v).1, .setOutput (c.setOutput a v).2)
  | .next i o => ((c.next oc i o).1, .next (c.next oc i o).2)
  | .read n len => match c.read n len with
    | .ok r => (r.1, .read (.ok r.2))
    | .err e => (c, .read (.err e))
    | .panic => (c, .read .panic)
  | .write n buf => ((c.writeBytes n buf).1, .write (c.writeBytes n buf).2)

/-- What is seen of a history of calls. It ends with a panic; after that there is nothing to see. -/
def trace (oc : Bool) (c : Coupler) : List COp → List Seen
  | [] => []
  | op :: ops =>
    let r := call oc c op
    if r.2.panicked then [⟨r.2, [], []⟩]
    else ⟨r.2, r.1.inputs, r.1.outputs⟩ :: trace oc r.1 ops

/-- A call of the model of `Model/Imperative.lean`, with the orders of iteration if it is a
cycle. -/
def Imp.call (oc : Bool) (c : Imp.Coupler) (ord : Imp.Orders) : COp → Imp.Coupler × Ret
  | .setOutput a v => ((Imp.setOutput c a v).1, .setOutput (Imp.setOutput c a v).2)
  | .next i o => ((Imp.next oc ord c i o).1, .next (Imp.next oc ord c i o).2)
  | .read n len => match Imp.read c n len with
    | .ok r => (r.1, .read (.ok r.2))
    | .err e => (c, .read (.err e))
    | .panic => (c, .read .panic)
  | .write n buf => ((Imp.writeBytes c n buf).1, .write (Imp.writeBytes c n buf).2)

/-- What is seen of a history of calls of the model of `Model/Imperative.lean`, where call number
`k` iterates over hash maps in the order `ord k`. -/
def Imp.trace (oc : Bool) (ord : Nat → Imp.Orders) (k : Nat) (c : Imp.Coupler) :
    List COp → List Seen
  | [] => []
  | op :: ops =>
    let r := Imp.call oc c (ord k) op
    if r.2.panicked then [⟨r.2, [], []⟩]
    else ⟨r.2, r.1.inValues, r.1.outValues⟩ :: Imp.trace oc ord (k + 1) r.1 ops

end Ur20.Spec
