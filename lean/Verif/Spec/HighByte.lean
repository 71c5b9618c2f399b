import Verif.Spec.Channels

/-! # Modules of several bytes that start in the high byte of a register

A module with an even number of bytes, two or more, can have an offset in the middle of a register.
Its bytes are then those from its offset on, as if the image were shifted by one byte. -/

namespace Ur20.Spec

/-- The registers `d` hold the `bytes` bytes of the image from bit `pos` on. -/
def OwnBytes (img : List Word) (pos bytes : Nat) (d : List Word) : Prop :=
  d.length = bytes / 2 ∧ ∀ k, k < bytes → byteAt d k = byteAt img (pos / 8 + k)

/-- The registers `d` hold the `bytes` bytes of the image from bit `pos` on, except for the last
byte, which is zero whatever the image has there. -/
def OwnBytesButLast (img : List Word) (pos bytes : Nat) (d : List Word) : Prop :=
  d.length = bytes / 2 ∧ (∀ k, k + 1 < bytes → ∃ b, byteAt d k = some b ∧
    byteAt img (pos / 8 + k) = some b) ∧ byteAt d (bytes - 1) = some 0#8

/-- Every module with an input offset has process input data and starts at a byte; every module with
an output offset has process output data and starts where the modules before it end. -/
def WellPlaced (cfg : CouplerConfig) : Prop :=
  ∀ j t par o i, ConfiguredAt cfg j t par o i →
    (i ≠ noOffset → 0 < inputBytes t par ∧ i.toNat % 8 = 0) ∧
    (o ≠ noOffset → 0 < outputBytes t par ∧ InPlace o (registersUpTo cfg j))

end Ur20.Spec
