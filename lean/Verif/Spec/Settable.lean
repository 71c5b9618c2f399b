import Verif.Spec.Wiring

/-!
# Specification: which output images an application can ask for
-/

namespace Ur20.Spec

/-- The image has data for output channel `ch` of a module at bit `pos` that the module can be given:
any bit for a digital output or relay, any register for an analog output, but 0 if the channel is
disabled, and for a counter a preset of at most `0x7FFFFF` microseconds and a control word that is
empty or has just the bit to start or the bit to stop. -/
def Settable (t : ModuleType) (par img : List Word) (pos ch : Nat) : Prop :=
  match t with
  | .UR20_4DO_P | .UR20_4DO_P_2A | .UR20_8DO_P | .UR20_16DO_P | .UR20_4RO_CO_255 =>
    ∃ b, bitAt img (pos + ch) = some b
  | .UR20_4AO_UI_16 => ∃ w, img[pos / 16 + ch]? = some w ∧
      (ParamIs par (3 * ch + 1) AnalogUIRange.Disabled → w = 0#16)
  | .UR20_4AO_UI_16_DIAG => ∃ w, img[pos / 16 + ch]? = some w ∧
      (ParamIs par (4 * ch + 1) AnalogUIRange.Disabled → w = 0#16)
  | .UR20_2FCNT_100 => ∃ us ctl, CounterPreset img (pos / 16) ch us ctl ∧ us ≤ 0x7FFFFF ∧
      (ctl = 0#16 ∨ ctl = 0x0100#16 ∨ ctl = 0x0200#16)
  | _ => False

/-- The images have the same data for output channel `ch` of a module at bit `pos`: its bit, its
register, or the registers of preset and control word of a counter. -/
def SameOutput (t : ModuleType) (img img' : List Word) (pos ch : Nat) : Prop :=
  match t with
  | .UR20_4DO_P | .UR20_4DO_P_2A | .UR20_8DO_P | .UR20_16DO_P | .UR20_4RO_CO_255 =>
    bitAt img (pos + ch) = bitAt img' (pos + ch)
  | .UR20_4AO_UI_16 | .UR20_4AO_UI_16_DIAG => img[pos / 16 + ch]? = img'[pos / 16 + ch]?
  | .UR20_2FCNT_100 => ∀ k ∈ [2 * ch, 2 * ch + 1, 4 + ch], img[pos / 16 + k]? = img'[pos / 16 + k]?
  | _ => True

/-- Output channel `ch` of module `j`, at bit `pos` of the output image: a channel of a module with
process output data that is not serial, and starts at a register if it has more than one byte. -/
def OutputAt (cfg : CouplerConfig) (j : Nat) (t : ModuleType) (par : List Word) (pos ch : Nat) :
    Prop :=
  ∃ o i, ConfiguredAt cfg j t par o i ∧ t ≠ .UR20_1COM_232_485_422 ∧ o ≠ noOffset ∧
    (o.toNat % 16 = 0 ∨ outputBytes t par = 1) ∧ pos = outBit o ∧ ch < outputChannels t

/-- Calls of `set_output` one after another. -/
def setAll (oc : Bool) (c : Coupler) (vals : List (Address × ChannelValue)) : Coupler :=
  runC oc c (vals.map fun e => .setOutput e.1 e.2)

end Ur20.Spec
