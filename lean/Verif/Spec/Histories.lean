import Verif.Spec.Failure
import Verif.Spec.SerialImage

/-!
# Specification: histories with failing cycles

Which cycles of a history count, and the segment numbers in the output frames of several serial
modules.
-/

namespace Ur20.Spec

open Com

/-- Both images can be decoded. -/
def Decodable (cfg : CouplerConfig) (pi po : List Word) : Prop :=
  InputsPresent cfg pi ∧ ∀ j, OutputPresent cfg po j

open Classical in
/-- The history without the cycles whose images cannot be decoded. -/
noncomputable def decodedOnly (cfg : CouplerConfig) : List COp → List COp
  | [] => []
  | .next pi po :: ops =>
    if Decodable cfg pi po then .next pi po :: decodedOnly cfg ops else decodedOnly cfg ops
  | op :: ops => op :: decodedOnly cfg ops

/-- Without overflow checks, no output image has more than 63488 registers. -/
def ImagesSmall (oc : Bool) (ops : List COp) : Prop :=
  ∀ pi po, COp.next pi po ∈ ops → oc = false → po.length ≤ 0xF800

/-- The frame size the first parameter word of a serial module stands for. -/
def frameLength (par : List Word) : ProcessDataLength :=
  if par[0]? = some 0#16 then .EightBytes else .SixteenBytes

/-- The segment number in the output frame of module `k`, if it is a serial module with both offsets:
bits 3 and 4 of the first byte. -/
def serialCount (cfg : CouplerConfig) (po : List Word) (k : Nat) : Option Nat :=
  match cfg.modules[k]?, cfg.offsets[2 * k]?, cfg.offsets[2 * k + 1]? with
  | some .UR20_1COM_232_485_422, some o, some i =>
    if o ≠ noOffset ∧ i ≠ noOffset then
      (byteAt po (outByte o)).map fun b => b.toNat / 8 % 4
    else none
  | _, _, _ => none

/-- The segment number in the frame of the last serial module before module `k`, or `prev` if there
is none. -/
def countBefore (cfg : CouplerConfig) (po : List Word) (prev : Nat) : Nat → Nat
  | 0 => prev
  | k + 1 => match serialCount cfg po k with
    | some n => n
    | none => countBefore cfg po prev k

/-- The segment number in the frame of the last serial module in the last cycle of a history, or
`prev` if there is none. -/
def lastCountOf (cfg : CouplerConfig) : Nat → List COp → Nat
  | prev, [] => prev
  | prev, .next _ po :: ops => lastCountOf cfg (countBefore cfg po prev cfg.modules.length) ops
  | prev, _ :: ops => lastCountOf cfg prev ops

end Ur20.Spec
