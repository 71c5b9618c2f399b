import Verif.Spec.Image
import Verif.Spec.Coupler

/-!
# Specification: complete process images

Sizes of the process data of the supported module types, positions of the modules in the images,
and the values modules accept, in terms of the configuration of a coupler.
-/

namespace Ur20.Spec

/-- Bytes of process input data of a module type. The first parameter word of the serial module
selects the frame size. -/
def inputBytes (t : ModuleType) (par : List Word) : Nat :=
  match t with
  | .UR20_4DI_P | .UR20_8DI_P_2W => 1
  | .UR20_4AI_RTD_DIAG | .UR20_4AI_TC_DIAG | .UR20_4AI_UI_16_DIAG | .UR20_4AI_UI_12
  | .UR20_4AI_UI_16 => 4 * 2
  | .UR20_8AI_I_16_DIAG_HD => 8 * 2
  | .UR20_2FCNT_100 => 2 * (4 + 4 + 2)
  | .UR20_1COM_232_485_422 => if par[0]? = some 0#16 then 8 else 16
  | .UR20_PF_O_1DI_SIL => 4
  | _ => 0

/-- Bytes of process output data of a module type. -/
def outputBytes (t : ModuleType) (par : List Word) : Nat :=
  match t with
  | .UR20_4DO_P | .UR20_4DO_P_2A | .UR20_8DO_P | .UR20_4RO_CO_255 => 1
  | .UR20_16DO_P => 2
  | .UR20_4AO_UI_16 | .UR20_4AO_UI_16_DIAG => 4 * 2
  | .UR20_2FCNT_100 => 2 * (4 + 2)
  | .UR20_1COM_232_485_422 => if par[0]? = some 0#16 then 8 else 16
  | _ => 0

/-- Module `j` of a configuration: its type, its parameter words, its output and its input offset
word. -/
def ConfiguredAt (cfg : CouplerConfig) (j : Nat) (t : ModuleType) (par : List Word)
    (o i : Word) : Prop :=
  cfg.modules[j]? = some t ∧ cfg.params[j]? = some par ∧
    cfg.offsets[2 * j]? = some o ∧ cfg.offsets[2 * j + 1]? = some i

/-- The offset word that means that a module has no data in an image. -/
def noOffset : Word := 0xFFFF#16

/-- The image has all `bytes` bytes, at least one, of a module at bit `pos`. The module starts at a
register, or in the high byte of a register if it has just one byte. -/
def Covers (img : List Word) (pos bytes : Nat) : Prop :=
  0 < bytes ∧ (pos % 16 = 0 ∨ (pos % 16 = 8 ∧ bytes = 1)) ∧ pos + 8 * bytes ≤ 16 * img.length

/-- The image has the registers that are read for a module with `bytes` bytes, at least one, at bit
`pos`: half as many registers as bytes, but at least one, from the register the module starts in. The
module starts at a byte. If it starts at a register or has just one byte then these registers have
all its bytes, see `Covers`; if a longer module starts in a high byte they lack its last byte. -/
def HasRegisters (img : List Word) (pos bytes : Nat) : Prop :=
  0 < bytes ∧ pos % 8 = 0 ∧ pos / 16 + max 1 (bytes / 2) ≤ img.length

/-- Output registers taken by the first `j` modules of a configuration: the bytes of every module
that starts at a register, rounded up to whole registers. -/
def registersUpTo (cfg : CouplerConfig) : Nat → Nat
  | 0 => 0
  | j + 1 => registersUpTo cfg j +
    match cfg.modules[j]?, cfg.params[j]?, cfg.offsets[2 * j]? with
    | some t, some par, some o =>
      if o ≠ noOffset ∧ o.toNat % 16 = 0 then (outputBytes t par + 1) / 2 else 0
    | _, _, _ => 0

/-- The length field in the second byte of a serial frame of `bytes` bytes at byte `p` is at most
what the frame has room for. -/
def FrameFits (img : List Word) (p bytes : Nat) : Prop :=
  ∀ b, byteAt img (p + 1) = some b → b.toNat + 2 ≤ bytes

/-- The images have the registers of all modules with an offset, the output offsets follow each other
without gaps, and the serial frames have valid length fields. -/
structure CompleteImages (cfg : CouplerConfig) (pi po : List Word) : Prop where
  input : ∀ j t par o i, ConfiguredAt cfg j t par o i → i ≠ noOffset →
    HasRegisters pi i.toNat (inputBytes t par) ∧
    (t = .UR20_1COM_232_485_422 → FrameFits pi (i.toNat / 8) (inputBytes t par))
  output : ∀ j t par o i, ConfiguredAt cfg j t par o i → o ≠ noOffset →
    InPlace o (registersUpTo cfg j) ∧ HasRegisters po (outBit o) (outputBytes t par) ∧
    (t = .UR20_1COM_232_485_422 → FrameFits po (outByte o) (outputBytes t par))

/-- The values a channel of a module type accepts as output. -/
def Accepts (t : ModuleType) (v : ChannelValue) : Prop :=
  match t with
  | .UR20_4DO_P | .UR20_4DO_P_2A | .UR20_8DO_P | .UR20_16DO_P | .UR20_4RO_CO_255 =>
    v = .disabled ∨ ∃ b, v = .bit b
  | .UR20_4AO_UI_16 | .UR20_4AO_UI_16_DIAG => v = .disabled ∨ ∃ x, v = .decimal32 x
  | .UR20_2FCNT_100 => v = .disabled ∨ ∃ x, v = .fcntOut x ∧ x.duration ≤ 8388607000
  | _ => True

/-- The preset of a counter channel, in microseconds, in the four bytes from byte `p` of an image on:
two registers, the first with the upper half. -/
def presetAt (img : List Word) (p : Nat) : Option Nat :=
  match byteAt img p, byteAt img (p + 1), byteAt img (p + 2), byteAt img (p + 3) with
  | some b0, some b1, some b2, some b3 =>
    some ((b1.toNat * 256 + b0.toNat) * 65536 + (b3.toNat * 256 + b2.toNat))
  | _, _, _, _ => none

/-- The pending values are of the right kind, and every counter channel without a pending value has
a preset of at most `0x7FFFFF` microseconds in the output image. -/
structure Encodable (cfg : CouplerConfig) (write : Address → Option ChannelValue)
    (po : List Word) : Prop where
  pending : ∀ j t par o i ch v, ConfiguredAt cfg j t par o i → o ≠ noOffset →
    write ⟨j, ch⟩ = some v → Accepts t v
  preset : ∀ j t par o i ch us, ConfiguredAt cfg j t par o i → o ≠ noOffset →
    t = .UR20_2FCNT_100 → ch < 2 → write ⟨j, ch⟩ = none →
    presetAt po (outByte o + 4 * ch) = some us → us ≤ 0x7FFFFF

end Ur20.Spec
