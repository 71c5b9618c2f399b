import Verif.Spec.Noninterference
import Verif.Spec.Histories

/-!
# Specification: what one module depends on when cycles fail

As `Spec/Noninterference.lean`, for any histories: cycles may fail because an image cannot be decoded
or because a pending value cannot be written.
-/

namespace Ur20.Spec

open Classical in
/-- What module `j` sees of a call. A cycle with an image that cannot be decoded does not reach the
modules. -/
noncomputable def COp.viewIn (cfg : CouplerConfig) (j : Nat) (p : Place) : COp → Option View
  | .next pi po =>
    if Decodable cfg pi po then some (.cycle (p.inBytes pi) (p.outBytes po)) else none
  | op => op.view j p

/-- What module `j` sees of a history. -/
noncomputable def viewIn (cfg : CouplerConfig) (j : Nat) (p : Place) (ops : List COp) : List View :=
  ops.filterMap (COp.viewIn cfg j p)

/-- What an application sees of module `j` in a history, at the calls and cycles that reach the
module. -/
noncomputable def seenReached (oc : Bool) (cfg : CouplerConfig) (j : Nat) (p : Place) (c : Coupler) :
    List COp → List ModuleSeen
  | [] => []
  | op :: ops =>
    (if (op.viewIn cfg j p).isSome then
      [match op with
        | .next pi po =>
          .cycle (c.next oc pi po).1.inputs[j]?
            (if p.type = .UR20_1COM_232_485_422 then none else (c.next oc pi po).1.outputs[j]?)
            ((c.next oc pi po).2.map p.outBytes)
        | _ => .call (call oc c op).2]
    else []) ++ seenReached oc cfg j p (op.apply oc c) ops

/-- The same is seen of a module: the same results of calls, the same values in `inputs()` and
`outputs()`, and, if both cycles return an image, the same bytes in it. -/
def SeenAlike : ModuleSeen → ModuleSeen → Prop
  | .call r, .call r' => r = r'
  | .cycle ins outs img, .cycle ins' outs' img' =>
    ins = ins' ∧ outs = outs' ∧ ∀ bs bs', img = .ok bs → img' = .ok bs' → bs = bs'
  | _, _ => False

end Ur20.Spec
