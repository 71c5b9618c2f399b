import Verif.Spec.Trace
import Verif.Spec.Cycle
import Verif.Spec.SerialImage

/-!
# Specification: adding modules at the end of a station
-/

namespace Ur20.Spec

open scoped List

/-- The second configuration is the first one with more modules after it. -/
def Extends (cfg cfg' : CouplerConfig) : Prop :=
  cfg.modules <+: cfg'.modules ∧ cfg.params <+: cfg'.params ∧ cfg.offsets <+: cfg'.offsets

/-- The call concerns one of the first `n` modules, or all. -/
def COp.below (n : Nat) : COp → Bool
  | .setOutput a _ => decide (a.module < n)
  | .read k _ => decide (k < n)
  | .write k _ => decide (k < n)
  | .next _ _ => true

/-- What is seen of the calls that concern the first `n` modules: results, `inputs()` and
`outputs()`. -/
def seenBelow (n : Nat) (oc : Bool) (c : Coupler) : List COp → List Seen
  | [] => []
  | op :: ops =>
    (if op.below n then [⟨(call oc c op).2, (call oc c op).1.inputs, (call oc c op).1.outputs⟩]
      else []) ++ seenBelow n oc (op.apply oc c) ops

/-- The second image begins with the first one, up to the high byte of its last register. -/
def BeginsWith (img img' : List Word) : Prop :=
  img.length ≤ img'.length ∧
    ∀ p, p < 2 * img.length → p + 1 ≠ 2 * img.length → byteAt img p = byteAt img' p

/-- The outputs of the modules added start at registers of their own. -/
def OwnRegisters (cfg cfg' : CouplerConfig) : Prop :=
  ∀ j t par o i, cfg.modules.length ≤ j → ConfiguredAt cfg' j t par o i → o ≠ noOffset →
    o.toNat % 16 = 0

/-- What is seen of a station (`s`) is what is seen of its modules in the extended station (`s'`):
the same results of calls, an image with which the image of the extended station begins, the same values
in `inputs()`, and the same values in `outputs()` except for serial modules. -/
def SameBelow (cfg cfg' : CouplerConfig) (s s' : Seen) : Prop :=
  (match s.result, s'.result with
    | .next (.ok img), .next (.ok img') =>
      BeginsWith img img' ∧ (OwnRegisters cfg cfg' → img <+: img')
    | r, r' => r = r') ∧
  s.inputs <+: s'.inputs ∧ s.outputs.length ≤ s'.outputs.length ∧
  ∀ j, j < s.outputs.length → cfg.modules[j]? ≠ some .UR20_1COM_232_485_422 →
    s.outputs[j]? = s'.outputs[j]?

end Ur20.Spec
