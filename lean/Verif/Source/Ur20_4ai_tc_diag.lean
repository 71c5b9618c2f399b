import Verif.Source.FbcTrait
import Verif.Source.Util

/-!
# `src/ur20_4ai_tc_diag.rs`, translated

Generated by `tools/rust2lean.py` from the source. Do not edit.
-/

set_option linter.unusedVariables false

namespace Ur20.Src.ur20_4ai_tc_diag

/-- `ModuleParameters`, `src/ur20_4ai_tc_diag.rs:25-27`. -/
structure ModuleParameters where
  temperatureUnit : TemperatureUnit

/-- `ChannelParameters`, `src/ur20_4ai_tc_diag.rs:30-38`. -/
structure ChannelParameters where
  measurementRange : TcRange
  coldJunctionCompensation : ColdJunctionCompensation
  conversionTime : ConversionTime
  channelDiagnostics : Bool
  limitValueMonitoring : Bool
  highLimitValue : I16
  lowLimitValue : I16

/-- `Mod`, `src/ur20_4ai_tc_diag.rs:13-16`. -/
structure Mod where
  modParams : ModuleParameters
  chParams : List ChannelParameters

/-- `default`, `src/ur20_4ai_tc_diag.rs:94-98`. -/
def ModuleParameters.default (oc : Bool) :
    Res ModuleParameters := do
  pure ({ temperatureUnit := TemperatureUnit.Celsius } : ModuleParameters)

/-- `default`, `src/ur20_4ai_tc_diag.rs:102-112`. -/
def ChannelParameters.default (oc : Bool) :
    Res ChannelParameters := do
  pure ({ measurementRange := TcRange.Disabled, coldJunctionCompensation := ColdJunctionCompensation.Internal, conversionTime := ConversionTime.ms80, channelDiagnostics := false, limitValueMonitoring := false, highLimitValue := 32767, lowLimitValue := (-32768) } : ChannelParameters)

/-- The derived `Mod::default`, `src/ur20_4ai_tc_diag.rs:13-16`. -/
def Mod.default (oc : Bool) : Res Mod := do
  let modParams ← ModuleParameters.default oc
  let chParams ← ChannelParameters.default oc
  pure { modParams := modParams, chParams := List.replicate 4 chParams }

/-- `module_type`, `src/ur20_4ai_tc_diag.rs:19-21`. -/
def Mod.module_type (oc : Bool) (self : Mod) :
    Res ModuleType := do
  pure ModuleType.UR20_4AI_TC_DIAG

/-- `is_enabled`, `src/ur20_4ai_tc_diag.rs:41-43`. -/
def ChannelParameters.is_enabled (oc : Bool) (self : ChannelParameters) :
    Res Bool := do
  let t1 ← (match self.measurementRange with
      | TcRange.Disabled =>
        (pure true)
      | _ =>
        (pure false))
  pure (!t1)

/-- `MeasurementRange` has no other variants, `src/ur20_4ai_tc_diag.rs:49-81`. -/
theorem MeasurementRange.variants (x : TcRange) : x ∈ [
    TcRange.TC_Type_J,
    TcRange.TC_Type_K,
    TcRange.TC_Type_N,
    TcRange.TC_Type_R,
    TcRange.TC_Type_S,
    TcRange.TC_Type_T,
    TcRange.TC_Type_B,
    TcRange.TC_Type_C,
    TcRange.TC_Type_E,
    TcRange.TC_Type_L,
    TcRange.TC_Type_U,
    TcRange.uVPlusMinus15625,
    TcRange.uVPlusMinus31250,
    TcRange.uVPlusMinus62500,
    TcRange.mVPlusMinus125,
    TcRange.mVPlusMinus250,
    TcRange.mVPlusMinus500,
    TcRange.VPlusMinus1,
    TcRange.VPlusMinus2,
    TcRange.Disabled] := by
  cases x <;> simp

/-- The derived `FromPrimitive`, `src/ur20_4ai_tc_diag.rs:49-81`. -/
instance : FromPrimitive TcRange where
  from_u16 n := lookup_code n [
    (0, TcRange.TC_Type_J),
    (1, TcRange.TC_Type_K),
    (2, TcRange.TC_Type_N),
    (3, TcRange.TC_Type_R),
    (4, TcRange.TC_Type_S),
    (5, TcRange.TC_Type_T),
    (6, TcRange.TC_Type_B),
    (7, TcRange.TC_Type_C),
    (8, TcRange.TC_Type_E),
    (9, TcRange.TC_Type_L),
    (10, TcRange.TC_Type_U),
    (11, TcRange.uVPlusMinus15625),
    (12, TcRange.uVPlusMinus31250),
    (13, TcRange.uVPlusMinus62500),
    (14, TcRange.mVPlusMinus125),
    (15, TcRange.mVPlusMinus250),
    (16, TcRange.mVPlusMinus500),
    (17, TcRange.VPlusMinus1),
    (18, TcRange.VPlusMinus2),
    (19, TcRange.Disabled)]

/-- The derived `ToPrimitive`, `src/ur20_4ai_tc_diag.rs:49-81`. -/
instance : ToPrimitive TcRange where
  to_u16 x := match x with
    | TcRange.TC_Type_J => some 0
    | TcRange.TC_Type_K => some 1
    | TcRange.TC_Type_N => some 2
    | TcRange.TC_Type_R => some 3
    | TcRange.TC_Type_S => some 4
    | TcRange.TC_Type_T => some 5
    | TcRange.TC_Type_B => some 6
    | TcRange.TC_Type_C => some 7
    | TcRange.TC_Type_E => some 8
    | TcRange.TC_Type_L => some 9
    | TcRange.TC_Type_U => some 10
    | TcRange.uVPlusMinus15625 => some 11
    | TcRange.uVPlusMinus31250 => some 12
    | TcRange.uVPlusMinus62500 => some 13
    | TcRange.mVPlusMinus125 => some 14
    | TcRange.mVPlusMinus250 => some 15
    | TcRange.mVPlusMinus500 => some 16
    | TcRange.VPlusMinus1 => some 17
    | TcRange.VPlusMinus2 => some 18
    | TcRange.Disabled => some 19

/-- `ColdJunctionCompensation` has no other variants, `src/ur20_4ai_tc_diag.rs:85-92`. -/
theorem ColdJunctionCompensation.variants (x : ColdJunctionCompensation) : x ∈ [
    ColdJunctionCompensation.Internal,
    ColdJunctionCompensation.ExternalChannel0,
    ColdJunctionCompensation.ExternalChannel1,
    ColdJunctionCompensation.ExternalChannel2,
    ColdJunctionCompensation.ExternalChannel3] := by
  cases x <;> simp

/-- The derived `FromPrimitive`, `src/ur20_4ai_tc_diag.rs:85-92`. -/
instance : FromPrimitive ColdJunctionCompensation where
  from_u16 n := lookup_code n [
    (0, ColdJunctionCompensation.Internal),
    (1, ColdJunctionCompensation.ExternalChannel0),
    (2, ColdJunctionCompensation.ExternalChannel1),
    (3, ColdJunctionCompensation.ExternalChannel2),
    (4, ColdJunctionCompensation.ExternalChannel3)]

/-- The derived `ToPrimitive`, `src/ur20_4ai_tc_diag.rs:85-92`. -/
instance : ToPrimitive ColdJunctionCompensation where
  to_u16 x := match x with
    | ColdJunctionCompensation.Internal => some 0
    | ColdJunctionCompensation.ExternalChannel0 => some 1
    | ColdJunctionCompensation.ExternalChannel1 => some 2
    | ColdJunctionCompensation.ExternalChannel2 => some 3
    | ColdJunctionCompensation.ExternalChannel3 => some 4

/-- `parameters_from_raw_data`, `src/ur20_4ai_tc_diag.rs:155-197`. -/
def parameters_from_raw_data (oc : Bool) (data : List Word) :
    Res (ModuleParameters × (List ChannelParameters)) := do
  let _ ← (if decide (data.length < 29) then
        (Res.err Error.bufferLength)
      else
        (pure ()))
  let t1 ← r_index data 0
  let t2 ← Res.ofOption Error.channelParameter (FromPrimitive.from_u16 t1 : Option TemperatureUnit)
  let temperature_unit := t2
  let module_parameters := ({ temperatureUnit := temperature_unit } : ModuleParameters)
  let t3 ← r_slice_from data 1
  let t16 := r_map (r_chunks_exact t3 7)
      (fun data =>
        (do
          let t4 ← r_index data 0
          let t5 ← Res.ofOption Error.channelParameter (FromPrimitive.from_u16 t4 : Option TcRange)
          let t6 ← r_index data 1
          let t7 ← Res.ofOption Error.channelParameter (FromPrimitive.from_u16 t6 : Option ColdJunctionCompensation)
          let t8 ← r_index data 2
          let t9 ← Res.ofOption Error.channelParameter (FromPrimitive.from_u16 t8 : Option ConversionTime)
          let t10 ← r_index data 3
          let t11 ← (if t10 == 0 then
                (pure false)
              else if t10 == 1 then
                (pure true)
              else
                (Res.err Error.channelParameter))
          let t12 ← r_index data 4
          let t13 ← (if t12 == 0 then
                (pure false)
              else if t12 == 1 then
                (pure true)
              else
                (Res.err Error.channelParameter))
          let t14 ← r_index data 5
          let t15 ← r_index data 6
          pure ({ measurementRange := t5, coldJunctionCompensation := t7, conversionTime := t9, channelDiagnostics := t11, limitValueMonitoring := t13, highLimitValue := (r_as t14 : I16), lowLimitValue := (r_as t15 : I16) } : ChannelParameters)))
  let t17 ← r_collect t16
  let channel_parameters := t17
  let t18 ← r_to_array 4 channel_parameters
  let channel_parameters := t18
  pure (module_parameters, channel_parameters)

/-- `from_modbus_parameter_data`, `src/ur20_4ai_tc_diag.rs:116-122`. -/
def Mod.from_modbus_parameter_data (oc : Bool) (data : List Word) :
    Res Mod := do
  let t1 ← parameters_from_raw_data oc data
  let (mod_params, ch_params) := t1
  pure ({ modParams := mod_params, chParams := ch_params } : Mod)

/-- `process_input_byte_count`, `src/ur20_4ai_tc_diag.rs:126-128`. -/
def Mod.process_input_byte_count (oc : Bool) (self : Mod) :
    Res Nat := do
  pure 8

/-- `process_output_byte_count`, `src/ur20_4ai_tc_diag.rs:129-131`. -/
def Mod.process_output_byte_count (oc : Bool) (self : Mod) :
    Res Nat := do
  pure 0

/-- `u16_to_thermal_value`, `src/ur20_4ai_tc_diag.rs:200-227`. -/
def u16_to_thermal_value (oc : Bool) (val : Word) (measurement_range : TcRange) :
    Res (Option F32) := do
  let fval := (r_from (r_as val : I16) : F32)
  (match measurement_range with
  | TcRange.TC_Type_J | TcRange.TC_Type_K | TcRange.TC_Type_N | TcRange.TC_Type_R | TcRange.TC_Type_S | TcRange.TC_Type_T | TcRange.TC_Type_B | TcRange.TC_Type_C | TcRange.TC_Type_E | TcRange.TC_Type_L | TcRange.TC_Type_U =>
    (do
      (if val == 32767 then
        (pure none)
      else
        (do
          let t1 ← r_mul oc fval (F32.lit (1 / 10))
          pure (some t1))))
  | TcRange.uVPlusMinus15625 =>
    (do
      let t2 ← r_mul oc (F32.lit (15625 / 1000000)) fval
      let t3 ← r_div oc t2 (F32.lit 32767)
      pure (some t3))
  | TcRange.uVPlusMinus31250 =>
    (do
      let t4 ← r_mul oc (F32.lit (3125 / 100000)) fval
      let t5 ← r_div oc t4 (F32.lit 32767)
      pure (some t5))
  | TcRange.uVPlusMinus62500 =>
    (do
      let t6 ← r_mul oc (F32.lit (625 / 10000)) fval
      let t7 ← r_div oc t6 (F32.lit 32767)
      pure (some t7))
  | TcRange.mVPlusMinus125 =>
    (do
      let t8 ← r_mul oc (F32.lit (125 / 1000)) fval
      let t9 ← r_div oc t8 (F32.lit 32767)
      pure (some t9))
  | TcRange.mVPlusMinus250 =>
    (do
      let t10 ← r_mul oc (F32.lit (25 / 100)) fval
      let t11 ← r_div oc t10 (F32.lit 32767)
      pure (some t11))
  | TcRange.mVPlusMinus500 =>
    (do
      let t12 ← r_mul oc (F32.lit (5 / 10)) fval
      let t13 ← r_div oc t12 (F32.lit 32767)
      pure (some t13))
  | TcRange.VPlusMinus1 =>
    (do
      let t14 ← r_mul oc (F32.lit 1) fval
      let t15 ← r_div oc t14 (F32.lit 32767)
      pure (some t15))
  | TcRange.VPlusMinus2 =>
    (do
      let t16 ← r_mul oc (F32.lit 2) fval
      let t17 ← r_div oc t16 (F32.lit 32767)
      pure (some t17))
  | TcRange.Disabled =>
    (pure none))

/-- `process_input_data`, `src/ur20_4ai_tc_diag.rs:132-152`. -/
def Mod.process_input_data (oc : Bool) (self : Mod) (data : List Word) :
    Res (List ChannelValue) := do
  let _ ← (if data.length != 4 then
        (Res.err Error.bufferLength)
      else
        (pure ()))
  let t3 := r_map (r_zip (r_iter data) (r_iter self.chParams))
      (fun (val, cfg) =>
        (do
          let t1 ← ChannelParameters.is_enabled oc cfg
          (if t1 then
            (do
              let t2 ← u16_to_thermal_value oc val cfg.measurementRange
              (match t2 with
              | some v =>
                (pure (ChannelValue.decimal32 v))
              | none =>
                (pure ChannelValue.none)))
          else
            (pure ChannelValue.disabled))))
  let t4 ← r_collect t3
  let res := t4
  pure res

/-- The trait object of a module, `src/ur20_4ai_tc_diag.rs:125-153`. -/
instance : ToDyn Mod where
  toDyn oc self := {
    module_type := Mod.module_type oc self
    process_input_byte_count := Mod.process_input_byte_count oc self
    process_output_byte_count := Mod.process_output_byte_count oc self
    process_input_data := Mod.process_input_data oc self
    process_output_data := ur20_fbc_mod_tcp.ProcessModbusTcpData.process_output_data oc (Mod.module_type oc self)
    process_output_values := ur20_fbc_mod_tcp.ProcessModbusTcpData.process_output_values oc (Mod.module_type oc self) }

end Ur20.Src.ur20_4ai_tc_diag
