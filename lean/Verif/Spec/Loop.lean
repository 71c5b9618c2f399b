import Verif.Spec.Channels
import Verif.Spec.SerialImage

/-!
# Specification: an application that runs a coupler in a loop

The application makes any calls, then runs a cycle with the input image of the device and the output
image the cycle before returned, and goes on with the image it gets.
-/

namespace Ur20.Spec

/-- The input image has the registers of all modules with an input offset. -/
def InputsReady (cfg : CouplerConfig) (pi : List Word) : Prop :=
  ∀ j t par o i, ConfiguredAt cfg j t par o i → i ≠ noOffset →
    HasRegisters pi i.toNat (inputBytes t par) ∧
    (t = .UR20_1COM_232_485_422 → FrameFits pi (i.toNat / 8) (inputBytes t par))

/-- The output image has the data of all modules with an output offset, the offsets follow each
other without gaps, serial frames have valid length fields and counter presets are in range. -/
structure OutputsReady (cfg : CouplerConfig) (po : List Word) : Prop where
  data : ∀ j t par o i, ConfiguredAt cfg j t par o i → o ≠ noOffset →
    InPlace o (registersUpTo cfg j) ∧ Covers po (outBit o) (outputBytes t par) ∧
    (t = .UR20_1COM_232_485_422 → FrameFits po (outByte o) (outputBytes t par))
  preset : ∀ j t par o i ch us, ConfiguredAt cfg j t par o i → o ≠ noOffset →
    t = .UR20_2FCNT_100 → ch < 2 → presetAt po (outByte o + 4 * ch) = some us → us ≤ 0x7FFFFF

/-- Calls other than cycles that write only values the modules accept. -/
def AcceptedCalls (cfg : CouplerConfig) (calls : List COp) : Prop :=
  (∀ op ∈ calls, op.IsCall) ∧
  ∀ a v, COp.setOutput a v ∈ calls → ∀ t, cfg.modules[a.module]? = some t → Accepts t v

/-- The loop: for every round the calls before the cycle and the input image of the cycle. The state
of the coupler and the output image at the end, if all cycles succeed. -/
def closedLoop (oc : Bool) (c : Coupler) (po : List Word) :
    List (List COp × List Word) → Option (Coupler × List Word)
  | [] => some (c, po)
  | (calls, pi) :: rounds =>
    match (runC oc c calls).next oc pi po with
    | (c', .ok img) => closedLoop oc c' img rounds
    | _ => none

/-- The output offsets follow each other without gaps; every module with an output offset has output
data and starts at a register, unless it has just one byte. -/
def Placed (cfg : CouplerConfig) : Prop :=
  ∀ j t par o i, ConfiguredAt cfg j t par o i → o ≠ noOffset →
    InPlace o (registersUpTo cfg j) ∧ 0 < outputBytes t par ∧
    (o.toNat % 16 = 0 ∨ outputBytes t par = 1)

/-- The value of the last `set_output` to an address. -/
def lastSet (a : Address) : List COp → Option ChannelValue
  | [] => none
  | .setOutput b v :: ops => (lastSet a ops).or (if b = a then some v else none)
  | _ :: ops => lastSet a ops

/-- The value of the last `set_output` to an address in a loop. -/
def lastSetIn (a : Address) (rounds : List (List COp × List Word)) : Option ChannelValue :=
  lastSet a (rounds.flatMap fun r => r.1)

/-- Channel `ch` of a module with process output data at bit `pos` holds the value `v` in the image.
An analog register may have moved towards zero, but not past a multiple of 27, and not at all in the
format S5. -/
def Settled (t : ModuleType) (par img : List Word) (pos ch : Nat) (v : ChannelValue) : Prop :=
  match t with
  | .UR20_4DO_P | .UR20_4DO_P_2A | .UR20_8DO_P | .UR20_16DO_P | .UR20_4RO_CO_255 =>
    ∃ b, bitAt img (pos + ch) = some b ∧ (v = .bit b ∨ (v = .disabled ∧ b = false))
  | .UR20_4AO_UI_16 | .UR20_4AO_UI_16_DIAG =>
    ∀ r f, OutputFormat t par ch r f → r ≠ .Disabled → ∃ (w : Word) (e : ℤ),
      img[pos / 16 + ch]? = some w ∧
      ((∃ x, v = .decimal32 x ∧ EncodedAs (r, f) x e) ∨ (v = .disabled ∧ e = 0)) ∧
      (f = .S5 → w.toInt = e) ∧
      (0 ≤ e → 27 * (e / 27) ≤ w.toInt ∧ w.toInt ≤ e) ∧
      (e ≤ 0 → e ≤ w.toInt ∧ w.toInt ≤ -(27 * (-e / 27)))
  | .UR20_2FCNT_100 => ∃ us ctl, CounterPreset img (pos / 16) ch us ctl ∧
      ((∃ x, v = .fcntOut x ∧ us = x.duration / 1000 ∧ ctl = controlOf x.command) ∨
        (v = .disabled ∧ us = 0 ∧ ctl = 0#16))
  | _ => False

end Ur20.Spec
