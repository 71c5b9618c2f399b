import Verif.Spec.Settings
import Verif.Spec.Trace

/-!
# Specification: modules whose settings were edited

The settings of a module are public fields, so an application can hold modules that no parameter
registers stand for: with other numbers of channel parameter sets, or with limits and substitute
values that no register holds.
-/

namespace Ur20.Spec

/-- The number of channel parameter sets of a module; none for modules without channel
parameters. -/
def parameterSets : Module → Nat
  | .di m => m.chParams.length
  | .dout m => m.chParams.length
  | .ro m => m.chParams.length
  | .ao m => m.chParams.length
  | .aoDiag m => m.chParams.length
  | .rtd m => m.chParams.length
  | .aiDiag m => m.chParams.length
  | .ai m => m.chParams.length
  | .aiI m => m.chParams.length
  | .tc _ => 4
  | .fcnt m => m.chParams.length
  | .com m => m.chParams.length
  | .do16 | .sil => 0

/-- Analog output modules. -/
def IsAnalogOutput : Module → Prop
  | .ao _ | .aoDiag _ => True
  | _ => False

/-- Modules with process input data that have their channel parameters in a vector and need them
to decode it: the analog input modules but the thermocouple module, and the counter module. -/
def ChecksInputs : Module → Prop
  | .rtd _ | .aiDiag _ | .ai _ | .aiI _ | .fcnt _ => True
  | _ => False

/-- Modules that need their channel parameters to encode output values: the analog output modules
and the counter module. -/
def ChecksOutputs : Module → Prop
  | .ao _ | .aoDiag _ | .fcnt _ => True
  | _ => False

/-- The modules do the same with all registers and values. -/
def SameWork (m m' : Module) : Prop :=
  m.moduleType = m'.moduleType ∧ m.inputByteCount = m'.inputByteCount ∧
  m.outputByteCount = m'.outputByteCount ∧
  (∀ ws, m.processInputData ws = m'.processInputData ws) ∧
  (∀ ws, m.processOutputData ws = m'.processOutputData ws) ∧
  ∀ vs, m.processOutputValues vs = m'.processOutputValues vs

/-- The modules are of the same type and agree on the settings that say how registers and values
are converted: ranges and data formats of analog channels, and the frame size of serial modules.
They may differ in delays, filters, substitute values, limits, diagnostics, units, connection types,
conversion times, cold junction compensation and all settings of the serial line. -/
def SameConversion : Module → Module → Prop
  | .di m, .di m' => m.variant = m'.variant
  | .dout m, .dout m' => m.variant = m'.variant
  | .do16, .do16 => True
  | .ro _, .ro _ => True
  | .ao m, .ao m' => m.chParams.map (fun c => (c.outputRange, c.dataFormat)) =
      m'.chParams.map (fun c => (c.outputRange, c.dataFormat))
  | .aoDiag m, .aoDiag m' => m.chParams.map (fun c => (c.outputRange, c.dataFormat)) =
      m'.chParams.map (fun c => (c.outputRange, c.dataFormat))
  | .rtd m, .rtd m' => m.chParams.map (·.measurementRange) = m'.chParams.map (·.measurementRange)
  | .aiDiag m, .aiDiag m' => m.chParams.map (fun c => (c.measurementRange, c.dataFormat)) =
      m'.chParams.map (fun c => (c.measurementRange, c.dataFormat))
  | .ai m, .ai m' => m.variant = m'.variant ∧
      m.chParams.map (fun c => (c.measurementRange, c.dataFormat)) =
        m'.chParams.map (fun c => (c.measurementRange, c.dataFormat))
  | .aiI m, .aiI m' => m.chParams.map (fun c => (c.measurementRange, c.dataFormat)) =
      m'.chParams.map (fun c => (c.measurementRange, c.dataFormat))
  | .tc m, .tc m' => m.chParams.toList.map (·.measurementRange) =
      m'.chParams.toList.map (·.measurementRange)
  | .fcnt m, .fcnt m' => m.chParams.length = m'.chParams.length
  | .com m, .com m' => m.processDataLen = m'.processDataLen
  | .sil, .sil => True
  | _, _ => False

/-- The parameter registers that say how registers and values are converted: data format and range
of every analog channel, the frame size of serial modules. -/
def conversionRegisters : ModuleType → List Nat
  | .UR20_4AO_UI_16 => [0, 1, 3, 4, 6, 7, 9, 10]
  | .UR20_4AO_UI_16_DIAG => [0, 1, 4, 5, 8, 9, 12, 13]
  | .UR20_4AI_UI_12 | .UR20_4AI_UI_16 => [1, 2, 3, 4, 5, 6, 7, 8]
  | .UR20_4AI_UI_16_DIAG => [4, 5, 9, 10, 14, 15, 19, 20]
  | .UR20_8AI_I_16_DIAG_HD => [3, 4, 7, 8, 11, 12, 15, 16, 19, 20, 23, 24, 27, 28, 31, 32]
  | .UR20_4AI_RTD_DIAG | .UR20_4AI_TC_DIAG => [1, 8, 15, 22]
  | .UR20_1COM_232_485_422 => [0]
  | _ => []

end Ur20.Spec
