import Verif.Source.FbcTrait
import Verif.Source.Util

/-!
# `src/ur20_2fcnt_100.rs`, translated

Generated by `tools/rust2lean.py` from the source. Do not edit.
-/

set_option linter.unusedVariables false

namespace Ur20.Src.ur20_2fcnt_100

/-- `MAX_MEASUREMENT_DURATION`, `src/ur20_2fcnt_100.rs:8-10`. -/
def MAX_MEASUREMENT_DURATION : Duration := r_duration 8 388607000

/-- `MICROS_PER_SEC`, `src/ur20_2fcnt_100.rs:12-12`. -/
def MICROS_PER_SEC : BitVec 32 := 1000000

/-- `NANOS_PER_SEC`, `src/ur20_2fcnt_100.rs:13-13`. -/
def NANOS_PER_SEC : BitVec 32 := 1000000000

/-- `MAX_MEASUREMENT_PERIOD`, `src/ur20_2fcnt_100.rs:14-14`. -/
def MAX_MEASUREMENT_PERIOD : BitVec 64 := 134217727

/-- `ChannelParameters`, `src/ur20_2fcnt_100.rs:60-63`. -/
structure ChannelParameters where
  inputFilter : InputFilter

/-- `Mod`, `src/ur20_2fcnt_100.rs:17-19`. -/
structure Mod where
  chParams : List ChannelParameters

/-- The fields of `ProcessInput`, `src/ur20_2fcnt_100.rs:22-29`. -/
def ProcessInput.fields (x : FcntIn) : (Option Duration) × (BitVec 32) × Bool :=
  (x.duration, x.count, x.active)

/-- `ProcessInput` has no other fields. -/
theorem ProcessInput.fields_all (x : FcntIn) : x = { duration := x.duration, count := x.count, active := x.active } := rfl

/-- `hertz`, `src/ur20_2fcnt_100.rs:34-39`. -/
def ProcessInput.hertz (oc : Bool) (self : FcntIn) :
    Res (Option F32) := do
  let t4 ← r_opt_map self.duration
        (fun d =>
          (do
            let t1 ← r_div oc (r_as (r_subsec_nanos d) : F32) (r_as NANOS_PER_SEC : F32)
            let t2 ← r_add oc (r_as (r_as_secs d) : F32) t1
            let t3 ← r_div oc (r_as self.count : F32) t2
            pure t3))
  pure t4

/-- `Command` has no other variants, `src/ur20_2fcnt_100.rs:44-49`. -/
theorem Command.variants (x : Command) : x ∈ [
    Command.start,
    Command.stop] := by
  cases x <;> simp

/-- The fields of `ProcessOutput`, `src/ur20_2fcnt_100.rs:52-57`. -/
def ProcessOutput.fields (x : FcntOut) : Duration × (Option Command) :=
  (x.duration, x.command)

/-- `ProcessOutput` has no other fields. -/
theorem ProcessOutput.fields_all (x : FcntOut) : x = { duration := x.duration, command := x.command } := rfl

/-- `default`, `src/ur20_2fcnt_100.rs:66-70`. -/
def ChannelParameters.default (oc : Bool) :
    Res ChannelParameters := do
  pure ({ inputFilter := InputFilter.us5 } : ChannelParameters)

/-- `default`, `src/ur20_2fcnt_100.rs:74-79`. -/
def ProcessOutput.default (oc : Bool) :
    Res FcntOut := do
  pure ({ duration := r_duration 0 0, command := none } : FcntOut)

/-- `from`, `src/ur20_2fcnt_100.rs:83-85`. -/
def ChannelValue.from_ProcessInput (oc : Bool) (i : FcntIn) :
    Res ChannelValue := do
  pure (ChannelValue.fcntIn i)

/-- `from`, `src/ur20_2fcnt_100.rs:89-91`. -/
def ChannelValue.from_ProcessOutput (oc : Bool) (o : FcntOut) :
    Res ChannelValue := do
  pure (ChannelValue.fcntOut o)

/-- `default`, `src/ur20_2fcnt_100.rs:95-98`. -/
def Mod.default (oc : Bool) :
    Res Mod := do
  let t2 := r_map (r_range 0 2)
      (fun _ =>
        (do
          let t1 ← ChannelParameters.default oc
          pure t1))
  let t3 ← r_collect t2
  let ch_params := t3
  pure ({ chParams := ch_params } : Mod)

/-- `module_type`, `src/ur20_2fcnt_100.rs:102-104`. -/
def Mod.module_type (oc : Bool) (self : Mod) :
    Res ModuleType := do
  pure ModuleType.UR20_2FCNT_100

/-- `parameters_from_raw_data`, `src/ur20_2fcnt_100.rs:236-256`. -/
def parameters_from_raw_data (oc : Bool) (data : List Word) :
    Res (List ChannelParameters) := do
  let _ ← (if decide (data.length < 2) then
        (Res.err Error.bufferLength)
      else
        (pure ()))
  let t3 := r_map (r_range 0 2)
      (fun idx =>
        (do
          let t1 ← r_index data idx
          let t2 ← (match (FromPrimitive.from_u16 t1 : Option InputFilter) with
              | some x =>
                (pure x)
              | _ =>
                (Res.err Error.channelParameter))
          let p := ({ inputFilter := t2 } : ChannelParameters)
          pure p))
  let channel_parameters ← r_capture (r_collect t3)
  r_release channel_parameters

/-- `from_modbus_parameter_data`, `src/ur20_2fcnt_100.rs:108-111`. -/
def Mod.from_modbus_parameter_data (oc : Bool) (data : List Word) :
    Res Mod := do
  let t1 ← parameters_from_raw_data oc data
  let ch_params := t1
  pure ({ chParams := ch_params } : Mod)

/-- `process_input_byte_count`, `src/ur20_2fcnt_100.rs:115-117`. -/
def Mod.process_input_byte_count (oc : Bool) (self : Mod) :
    Res Nat := do
  pure 20

/-- `process_output_byte_count`, `src/ur20_2fcnt_100.rs:118-120`. -/
def Mod.process_output_byte_count (oc : Bool) (self : Mod) :
    Res Nat := do
  pure 12

/-- `process_input_data`, `src/ur20_2fcnt_100.rs:121-158`. -/
def Mod.process_input_data (oc : Bool) (self : Mod) (data : List Word) :
    Res (List ChannelValue) := do
  let _ ← (if data.length != 10 then
        (Res.err Error.bufferLength)
      else
        (pure ()))
  let _ ← (if self.chParams.length != 2 then
        (Res.err Error.channelParameter)
      else
        (pure ()))
  let t9 := r_map (r_range 0 2)
      (fun i =>
        (do
          let t1 ← r_mul oc i 4
          let idx := t1
          let t2 ← r_add oc idx 2
          let t3 ← r_slice data idx t2
          let t4 ← r_add oc idx 2
          let t5 ← r_add oc idx 4
          let t6 ← r_slice data t4 t5
          let t7 ← r_add oc 8 i
          let t8 ← r_index data t7
          pure (t3, t6, t8)))
  let t19 := r_map t9
      (fun (duration, cnt, active) =>
        (do
          let t14 ← (do
                let t10 ← r_index duration 0
                let t11 ← r_shl oc (r_from t10 : BitVec 32) 16
                let t12 ← r_index duration 1
                let d := (r_from (t11 ||| (r_from t12 : BitVec 32)) : BitVec 64)
                (if decide (d ≥ MAX_MEASUREMENT_PERIOD) then
                  (pure none)
                else
                  (do
                    let t13 ← r_mul oc d 125
                    pure (some (r_from_nanos t13)))))
          let t15 ← r_index cnt 0
          let t16 ← r_shl oc (r_from t15 : BitVec 32) 16
          let t17 ← r_index cnt 1
          let t18 ← util.test_bit_16 oc active 8
          pure (t14, t16 ||| (r_from t17 : BitVec 32), t18)))
  let t20 := r_map t19
      (fun (duration, count, active) =>
        (pure (ChannelValue.fcntIn ({ duration := duration, count := count, active := active } : FcntIn))))
  let t21 ← r_collect t20
  let res := t21
  pure res

/-- `process_output_data`, `src/ur20_2fcnt_100.rs:159-190`. -/
def Mod.process_output_data (oc : Bool) (self : Mod) (data : List Word) :
    Res (List ChannelValue) := do
  let _ ← (if data.length != 6 then
        (Res.err Error.bufferLength)
      else
        (pure ()))
  let t6 := r_map (r_range 0 2)
      (fun i =>
        (do
          let t1 ← r_mul oc i 2
          let idx := t1
          let t2 ← r_add oc idx 2
          let t3 ← r_slice data idx t2
          let t4 ← r_add oc 4 i
          let t5 ← r_index data t4
          pure (t3, t5)))
  let t12 := r_map t6
      (fun (duration, control) =>
        (do
          let t7 ← util.test_bit_16 oc control 8
          let cmd ← (if t7 then
                (pure (some Command.start))
              else
                (do
                  let t8 ← util.test_bit_16 oc control 9
                  (if t8 then
                    (pure (some Command.stop))
                  else
                    (pure none))))
          let t9 ← r_index duration 0
          let t10 ← r_shl oc (r_from t9 : BitVec 32) 16
          let t11 ← r_index duration 1
          pure ((r_from (t10 ||| (r_from t11 : BitVec 32)) : BitVec 64), cmd)))
  let t14 := r_map t12
      (fun (duration, command) =>
        (do
          let t13 ← r_mul oc duration 1000
          pure (ChannelValue.fcntOut ({ duration := r_from_nanos t13, command := command } : FcntOut))))
  let t15 ← r_collect t14
  let res := t15
  pure res

/-- `process_output_values`, `src/ur20_2fcnt_100.rs:191-233`. -/
def Mod.process_output_values (oc : Bool) (self : Mod) (values : List ChannelValue) :
    Res (List Word) := do
  let t1 ← Mod.module_type oc self
  let t2 ← lib.ModuleType.channel_count oc t1
  let cnt := t2
  let _ ← (if values.length != cnt then
        (Res.err Error.channelValue)
      else
        (pure ()))
  let _ ← (if self.chParams.length != cnt then
        (Res.err Error.channelParameter)
      else
        (pure ()))
  let out : List Word := List.replicate 6 0
  let t3 ← r_collect (r_enumerate (r_iter values))
  let out ← r_loop t3 out (fun out (i, v) =>
        (do
          let out ← (match v with
              | ChannelValue.fcntOut v =>
                (do
                  let _ ← (if decide (v.duration > MAX_MEASUREMENT_DURATION) then
                        (Res.err Error.channelValue)
                      else
                        (pure ()))
                  let t4 ← r_mul oc (r_as (r_as_secs v.duration) : BitVec 32) MICROS_PER_SEC
                  let t5 ← r_add oc t4 (r_subsec_micros v.duration)
                  let micros := t5
                  let lo := micros &&& 65535
                  let t6 ← r_shr oc (micros &&& 4294901760) 16
                  let hi := t6
                  let t7 ← r_mul oc i 2
                  let idx := t7
                  let t8 ← r_set out idx (r_as hi : Word)
                  let out := t8
                  let t9 ← r_add oc idx 1
                  let t10 ← r_set out t9 (r_as lo : Word)
                  let out := t10
                  let out ← (match v.command with
                      | some cmd =>
                        (do
                          let t11 ← r_add oc i 4
                          let idx := t11
                          let out ← (match cmd with
                              | Command.start =>
                                (do
                                  let t12 ← util.set_bit_16 oc 0 8
                                  let t13 ← r_set out idx t12
                                  let out := t13
                                  pure out)
                              | Command.stop =>
                                (do
                                  let t14 ← util.set_bit_16 oc 0 9
                                  let t15 ← r_set out idx t14
                                  let out := t15
                                  pure out))
                          pure out)
                      | _ =>
                        (pure out))
                  pure out)
              | ChannelValue.disabled =>
                (pure out)
              | _ =>
                (Res.err Error.channelValue))
          pure out))
  pure out

/-- The trait object of a module, `src/ur20_2fcnt_100.rs:114-234`. -/
instance : ToDyn Mod where
  toDyn oc self := {
    module_type := Mod.module_type oc self
    process_input_byte_count := Mod.process_input_byte_count oc self
    process_output_byte_count := Mod.process_output_byte_count oc self
    process_input_data := Mod.process_input_data oc self
    process_output_data := Mod.process_output_data oc self
    process_output_values := Mod.process_output_values oc self }

end Ur20.Src.ur20_2fcnt_100
