import Verif.Spec.Cycle
import Verif.Spec.Analog
import Verif.Spec.Params

/-!
# Specification: channels of a configured coupler

What the channels of the supported module types show and write, in terms of the module type, the
parameter words and the registers of the process images only. The serial module has its own
specification.
-/

namespace Ur20.Spec

/-- Parameter word `k` holds the code of `x`. -/
def ParamIs {α : Type} [Coded α] (par : List Word) (k : Nat) (x : α) : Prop :=
  ∃ w : Word, par[k]? = some w ∧ holds x w

/-- Number of channels with input values. -/
def inputChannels : ModuleType → Nat
  | .UR20_4DI_P => 4
  | .UR20_8DI_P_2W => 8
  | .UR20_4AI_RTD_DIAG | .UR20_4AI_TC_DIAG | .UR20_4AI_UI_16_DIAG | .UR20_4AI_UI_12
  | .UR20_4AI_UI_16 => 4
  | .UR20_8AI_I_16_DIAG_HD => 8
  | .UR20_2FCNT_100 => 2
  | .UR20_PF_O_1DI_SIL => 1
  | _ => 0

/-- Number of channels with output values. -/
def outputChannels : ModuleType → Nat
  | .UR20_4DO_P | .UR20_4DO_P_2A | .UR20_4RO_CO_255 => 4
  | .UR20_8DO_P => 8
  | .UR20_16DO_P => 16
  | .UR20_4AO_UI_16 | .UR20_4AO_UI_16_DIAG => 4
  | .UR20_2FCNT_100 => 2
  | _ => 0

/-- The reading of a resistance thermometer channel. -/
def RtdReading (r : RtdRange) (w : Word) (v : ChannelValue) : Prop :=
  match rtdExact r with
  | none => v = .disabled
  | some f => ∃ q, v = .decimal32 (.fin q) ∧ IsNearest q (f w)

/-- The reading of a thermocouple channel: a voltage, or a temperature in tenths; 32767 means that
there is no value. -/
def TcReading (r : TcRange) (w : Word) (v : ChannelValue) : Prop :=
  (r = .Disabled → v = .disabled) ∧
  (∀ x, tcVolts r = some x → ∃ q, v = .decimal32 (.fin q) ∧ IsNearest q (x * w.toInt / 32767)) ∧
  (r ≠ .Disabled → tcVolts r = none →
    (w.toInt = 32767 → v = .none) ∧
    (w.toInt ≠ 32767 → ∃ q, v = .decimal32 (.fin q) ∧ Single q ∧
      |q - w.toInt / 10| ≤ |(w.toInt : ℚ) / 10| / 2 ^ 23))

/-- The reading of channel `ch` of a counter module at register `p`: the duration in units of 125 ns,
the count, both with the high word first, and the active flag. -/
def CounterReading (img : List Word) (p ch : Nat) (v : ChannelValue) : Prop :=
  ∃ dh dl nh nl s : Word, img[p + 4 * ch]? = some dh ∧ img[p + 4 * ch + 1]? = some dl ∧
    img[p + 4 * ch + 2]? = some nh ∧ img[p + 4 * ch + 3]? = some nl ∧ img[p + 8 + ch]? = some s ∧
    ∃ x, v = .fcntIn x ∧ x.count.toNat = nh.toNat * 65536 + nl.toNat ∧ x.active = s.getLsbD 8 ∧
      x.duration = (if 0x07FFFFFF ≤ dh.toNat * 65536 + dl.toNat then none
        else some ((dh.toNat * 65536 + dl.toNat) * 125))

/-- The status of a safety module at register `p`. -/
def SafetyReading (img : List Word) (p : Nat) (v : ChannelValue) : Prop :=
  ∃ w : Word, img[p]? = some w ∧ v = .silPFIn {
    safetyInput := w.getLsbD 0
    autostart := w.getLsbD 2
    manualStart := w.getLsbD 3
    safetyInputChannel1 := w.getLsbD 4
    safetyInputChannel2 := w.getLsbD 5
    volt24SafeOutput := w.getLsbD 8
    volt24Dc := w.getLsbD 10 }

/-- Channel `ch` of a module with process input data at bit `pos` shows `v`. -/
def InputShown (t : ModuleType) (par img : List Word) (pos ch : Nat) (v : ChannelValue) : Prop :=
  match t with
  | .UR20_4DI_P | .UR20_8DI_P_2W => ∃ b, bitAt img (pos + ch) = some b ∧ v = .bit b
  | .UR20_4AI_UI_12 | .UR20_4AI_UI_16 => ∃ w f r, img[pos / 16 + ch]? = some w ∧
      ParamIs par (1 + 2 * ch) f ∧ ParamIs par (1 + 2 * ch + 1) r ∧ AnalogReading (r, f) w v
  | .UR20_4AI_UI_16_DIAG => ∃ w f r, img[pos / 16 + ch]? = some w ∧
      ParamIs par (1 + 5 * ch + 3) f ∧ ParamIs par (1 + 5 * ch + 4) r ∧ AnalogReading (r, f) w v
  | .UR20_8AI_I_16_DIAG_HD => ∃ w f, ∃ r : AnalogIRange, img[pos / 16 + ch]? = some w ∧
      ParamIs par (1 + 4 * ch + 2) f ∧ ParamIs par (1 + 4 * ch + 3) r ∧
      AnalogReading (currentRange r, f) w v
  | .UR20_4AI_RTD_DIAG => ∃ w r, img[pos / 16 + ch]? = some w ∧ ParamIs par (1 + 7 * ch) r ∧
      RtdReading r w v
  | .UR20_4AI_TC_DIAG => ∃ w r, img[pos / 16 + ch]? = some w ∧ ParamIs par (1 + 7 * ch) r ∧
      TcReading r w v
  | .UR20_2FCNT_100 => CounterReading img (pos / 16) ch v
  | .UR20_PF_O_1DI_SIL => SafetyReading img (pos / 16) v
  | _ => False

/-- The preset of channel `ch` of a counter module at register `p` is `us` microseconds, with the
high word first, and the control word is `ctl`. -/
def CounterPreset (img : List Word) (p ch us : Nat) (ctl : Word) : Prop :=
  ∃ hi lo : Word, img[p + 2 * ch]? = some hi ∧ img[p + 2 * ch + 1]? = some lo ∧
    us = hi.toNat * 65536 + lo.toNat ∧ img[p + 4 + ch]? = some ctl

/-- The command of a control word. -/
def commandIn (ctl : Word) : Option Command :=
  if ctl.getLsbD 8 then some .start else if ctl.getLsbD 9 then some .stop else none

/-- The control word of a command. -/
def controlOf : Option Command → Word
  | some .start => 0x0100#16
  | some .stop => 0x0200#16
  | none => 0#16

/-- Channel `ch` of a module with process output data at bit `pos` shows `v`. -/
def OutputShown (t : ModuleType) (par img : List Word) (pos ch : Nat) (v : ChannelValue) : Prop :=
  match t with
  | .UR20_4DO_P | .UR20_4DO_P_2A | .UR20_8DO_P | .UR20_16DO_P | .UR20_4RO_CO_255 =>
    ∃ b, bitAt img (pos + ch) = some b ∧ v = .bit b
  | .UR20_4AO_UI_16 => ∃ w f r, img[pos / 16 + ch]? = some w ∧
      ParamIs par (3 * ch) f ∧ ParamIs par (3 * ch + 1) r ∧ AnalogReading (r, f) w v
  | .UR20_4AO_UI_16_DIAG => ∃ w f r, img[pos / 16 + ch]? = some w ∧
      ParamIs par (4 * ch) f ∧ ParamIs par (4 * ch + 1) r ∧ AnalogReading (r, f) w v
  | .UR20_2FCNT_100 => ∃ us ctl, CounterPreset img (pos / 16) ch us ctl ∧
      v = .fcntOut ⟨us * 1000, commandIn ctl⟩
  | _ => False

/-- What becomes of the register `w` of an analog output channel without a pending value. -/
def AnalogKept (p : AnalogUIRange × DataFormat) (w w' : Word) : Prop :=
  if p.1 = .Disabled then w' = 0#16
  else (p.2 = .S5 → w' = w) ∧ ((27 : ℤ) ∣ w.toInt → w' = w) ∧
    (0 < w.toInt → w'.toInt = w.toInt ∨ w'.toInt = w.toInt - 1) ∧
    (w.toInt < 0 → w'.toInt = w.toInt ∨ w'.toInt = w.toInt + 1) ∧
    (w.toInt = 0 → w'.toInt = 0)

/-- The register of an analog output channel after a cycle. A cycle with a pending value of another
kind does not succeed. -/
def AnalogWritten (p : AnalogUIRange × DataFormat) (pending : Option ChannelValue) (w w' : Word) :
    Prop :=
  match pending with
  | some (.decimal32 x) => EncodedAs p x w'.toInt
  | some .disabled => w' = 0#16
  | some _ => False
  | none => AnalogKept p w w'

/-- Preset and control word of a counter channel after a cycle. -/
def CounterWritten (pending : Option ChannelValue) (us us' : Nat) (ctl ctl' : Word) : Prop :=
  match pending with
  | some (.fcntOut x) => us' = x.duration / 1000 ∧ ctl' = controlOf x.command
  | some .disabled => us' = 0 ∧ ctl' = 0#16
  | some _ => False
  | none => us' = us ∧ ctl' = controlOf (commandIn ctl)

/-- What a cycle with the output image `old` and the returned image `new` does to channel `ch` of a
module with process output data at bit `pos`. -/
def OutputWritten (t : ModuleType) (par old new : List Word) (pos ch : Nat)
    (pending : Option ChannelValue) : Prop :=
  match t with
  | .UR20_4DO_P | .UR20_4DO_P_2A | .UR20_8DO_P | .UR20_16DO_P | .UR20_4RO_CO_255 =>
    ∃ b b', bitAt old (pos + ch) = some b ∧ bitAt new (pos + ch) = some b' ∧
      match pending with
      | some (.bit x) => b' = x
      | some .disabled => b' = false
      | some _ => False
      | none => b' = b
  | .UR20_4AO_UI_16 => ∃ w w' f r, old[pos / 16 + ch]? = some w ∧ new[pos / 16 + ch]? = some w' ∧
      ParamIs par (3 * ch) f ∧ ParamIs par (3 * ch + 1) r ∧ AnalogWritten (r, f) pending w w'
  | .UR20_4AO_UI_16_DIAG => ∃ w w' f r, old[pos / 16 + ch]? = some w ∧
      new[pos / 16 + ch]? = some w' ∧ ParamIs par (4 * ch) f ∧ ParamIs par (4 * ch + 1) r ∧
      AnalogWritten (r, f) pending w w'
  | .UR20_2FCNT_100 => ∃ us us' ctl ctl', CounterPreset old (pos / 16) ch us ctl ∧
      CounterPreset new (pos / 16) ch us' ctl' ∧ CounterWritten pending us us' ctl ctl'
  | _ => False

/-- Range and format of an analog output channel according to the parameter words. -/
def OutputFormat (t : ModuleType) (par : List Word) (ch : Nat) (r : AnalogUIRange)
    (f : DataFormat) : Prop :=
  match t with
  | .UR20_4AO_UI_16 => ParamIs par (3 * ch) f ∧ ParamIs par (3 * ch + 1) r
  | .UR20_4AO_UI_16_DIAG => ParamIs par (4 * ch) f ∧ ParamIs par (4 * ch + 1) r
  | _ => False

/-- No later module of a configuration uses a byte of the output image that belongs to module `j`, so
that none overwrites it. -/
def OutputsKept (cfg : CouplerConfig) (j : Nat) : Prop :=
  ∀ k t par o i t' par' o' i' p, j < k → ConfiguredAt cfg j t par o i →
    ConfiguredAt cfg k t' par' o' i' → o ≠ noOffset → o' ≠ noOffset →
    outByte o ≤ p → p < outByte o + outputBytes t par →
    ¬ (outByte o' ≤ p ∧ p < outByte o' + outputBytes t' par')

/-- No two modules of a configuration share a byte of the output image. -/
def DisjointOutputs (cfg : CouplerConfig) : Prop := ∀ j, OutputsKept cfg j

theorem disjointOutputs_of {cfg : CouplerConfig}
    (h : ∀ j k t par o i t' par' o' i' p, ConfiguredAt cfg j t par o i →
      ConfiguredAt cfg k t' par' o' i' → o ≠ noOffset → o' ≠ noOffset →
      outByte o ≤ p → p < outByte o + outputBytes t par →
      outByte o' ≤ p → p < outByte o' + outputBytes t' par' → j = k) : DisjointOutputs cfg :=
  fun j k t par o i t' par' o' i' p hjk h1 h2 h3 h4 h5 h6 h7 => by
    have := h j k t par o i t' par' o' i' p h1 h2 h3 h4 h5 h6 h7.1 h7.2
    omega

end Ur20.Spec
