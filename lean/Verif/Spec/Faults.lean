import Verif.Spec.Histories

/-!
# Specification: which error a failing cycle returns
-/

namespace Ur20.Spec

/-- The error for a module with `bytes` bytes at bit `pos` whose data cannot be decoded from an image:
the offset is wrong if the image has the registers of the module and the offset is not that of a
byte, otherwise data is missing. -/
def decodeError (img : List Word) (pos bytes : Nat) : Error :=
  if pos % 8 ≠ 0 ∧ pos / 16 + max 1 (bytes / 2) ≤ img.length then .moduleOffset else .bufferLength

/-- The input image lacks the data of module `j`, and the error for it. -/
def InputFault (cfg : CouplerConfig) (pi : List Word) (j : Nat) (e : Error) : Prop :=
  ∃ t par o i, ConfiguredAt cfg j t par o i ∧ i ≠ noOffset ∧
    ¬ (HasRegisters pi i.toNat (inputBytes t par) ∧
      (t = .UR20_1COM_232_485_422 → FrameFits pi (i.toNat / 8) (inputBytes t par))) ∧
    e = decodeError pi i.toNat (inputBytes t par)

/-- The output image lacks the data of module `j`, and the error for it. -/
def OutputFault (cfg : CouplerConfig) (po : List Word) (j : Nat) (e : Error) : Prop :=
  ∃ t par o i, ConfiguredAt cfg j t par o i ∧ o ≠ noOffset ∧
    ¬ (outputBase ≤ o.toNat ∧ HasRegisters po (outBit o) (outputBytes t par) ∧
      (t = .UR20_1COM_232_485_422 → FrameFits po (outByte o) (outputBytes t par))) ∧
    e = if o.toNat < outputBase then .bufferLength else decodeError po (outBit o) (outputBytes t par)

/-- The pending values of module `j` are of the right kind, and every counter channel without a
pending value has a preset of at most `0x7FFFFF` microseconds in the output image. -/
def ValuesFit (t : ModuleType) (o : Word) (write : Address → Option ChannelValue) (po : List Word)
    (j : Nat) : Prop :=
  (∀ ch v, write ⟨j, ch⟩ = some v → Accepts t v) ∧
  (t = .UR20_2FCNT_100 → ∀ ch us, ch < 2 → write ⟨j, ch⟩ = none →
    presetAt po (outByte o + 4 * ch) = some us → us ≤ 0x7FFFFF)

/-- The values of module `j` cannot be written to the output image, and the error for it: the values
do not fit, or they fit and the module is not where the modules before it end. -/
def EncodeFault (cfg : CouplerConfig) (write : Address → Option ChannelValue) (po : List Word)
    (j : Nat) (e : Error) : Prop :=
  ∃ t par o i, ConfiguredAt cfg j t par o i ∧ o ≠ noOffset ∧
    (¬ ValuesFit t o write po j ∧ e = .channelValue ∨
      ValuesFit t o write po j ∧ ¬ InPlace o (registersUpTo cfg j) ∧ e = .moduleOffset)

/-- `e` is the error of the first module with a fault. -/
def FirstFault (fault : Nat → Error → Prop) (e : Error) : Prop :=
  ∃ j, fault j e ∧ ∀ k, k < j → ∀ e', ¬ fault k e'

end Ur20.Spec
