import Verif.Spec.Cycle

/-!
# Specification: what the images must hold for a cycle to decode them
-/

namespace Ur20.Spec

/-- The input image has the registers of every module with an input offset, with valid length fields in
the serial frames. -/
def InputsPresent (cfg : CouplerConfig) (pi : List Word) : Prop :=
  ∀ j t par o i, ConfiguredAt cfg j t par o i → i ≠ noOffset →
    HasRegisters pi i.toNat (inputBytes t par) ∧
    (t = .UR20_1COM_232_485_422 → FrameFits pi (i.toNat / 8) (inputBytes t par))

/-- If module `j` has an output offset then the offset lies in the output area and the output image
has the registers of the module, with a valid length field in a serial frame. -/
def OutputPresent (cfg : CouplerConfig) (po : List Word) (j : Nat) : Prop :=
  ∀ t par o i, ConfiguredAt cfg j t par o i → o ≠ noOffset →
    outputBase ≤ o.toNat ∧ HasRegisters po (outBit o) (outputBytes t par) ∧
    (t = .UR20_1COM_232_485_422 → FrameFits po (outByte o) (outputBytes t par))

/-- Module `j` has an output offset before the start of the output area. -/
def BelowOutputs (cfg : CouplerConfig) (j : Nat) : Prop :=
  ∃ t par o i, ConfiguredAt cfg j t par o i ∧ o ≠ noOffset ∧ o.toNat < outputBase

/-- Module `j` is serial and lacks one of its offsets. -/
def DetachedSerial (cfg : CouplerConfig) (j : Nat) : Prop :=
  ∃ par o i, ConfiguredAt cfg j .UR20_1COM_232_485_422 par o i ∧ (o = noOffset ∨ i = noOffset)

end Ur20.Spec
