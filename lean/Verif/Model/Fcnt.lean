import Verif.Model.Digital

/-!
# Frequency counter module UR20-2FCNT-100 (`src/ur20_2fcnt_100.rs`) and safe power feed
module UR20-PF-O-1DI-SIL (`src/ur20_pf_o_1di_sil.rs`)
-/

namespace Ur20

namespace Fcnt

/-- `src/ur20_2fcnt_100.rs:60-63`. -/
structure ChannelParameters where
  inputFilter : InputFilter
  deriving DecidableEq, Repr

/-- `src/ur20_2fcnt_100.rs:17-19`. -/
structure Mod where
  chParams : List ChannelParameters
  deriving DecidableEq, Repr

/-- `MAX_MEASUREMENT_DURATION` in nanoseconds, `src/ur20_2fcnt_100.rs:9`. -/
def maxMeasurementDuration : Nat := 8388607000

/-- `MAX_MEASUREMENT_PERIOD`, `src/ur20_2fcnt_100.rs:14`. -/
def maxMeasurementPeriod : Nat := 0x07FFFFFF

/-- `(u32::from(hi) << 16) | u32::from(lo)`, `src/ur20_2fcnt_100.rs:138`, `:145`, `:178`. -/
def wide (hi lo : Word) : BitVec 32 := (hi.setWidth 32 <<< 16) ||| lo.setWidth 32

/-- `parameters_from_raw_data`, `src/ur20_2fcnt_100.rs:236-256`. -/
def parametersFromRawData (data : List Word) : Res (List ChannelParameters) :=
  if data.length < 2 then .err .bufferLength
  else mapRes (fun i => do
    let f ← codeParam InputFilter.fromU16 (← idx data i)
    pure ⟨f⟩) (List.range 2)

/-- `from_modbus_parameter_data`, `src/ur20_2fcnt_100.rs:107-112`. -/
def fromModbusParameterData (data : List Word) : Res Mod := do
  let p ← parametersFromRawData data
  pure ⟨p⟩

/-- The closures of `process_input_data` for channel `i`, `src/ur20_2fcnt_100.rs:131-155`. -/
def inputChannel (data : List Word) (i : Nat) : Res ChannelValue := do
  let k := i * 4
  let d0 ← idx data k
  let d1 ← idx data (k + 1)
  let c0 ← idx data (k + 2)
  let c1 ← idx data (k + 3)
  let active ← idx data (8 + i)
  let d := (wide d0 d1).toNat
  pure (.fcntIn {
    duration := if d ≥ maxMeasurementPeriod then none else some (d * 125)
    count := wide c0 c1
    active := testBit16 active 8 })

/-- `process_input_data`, `src/ur20_2fcnt_100.rs:121-158`. -/
def Mod.processInputData (m : Mod) (data : List Word) : Res (List ChannelValue) :=
  if data.length ≠ 10 then .err .bufferLength
  else if m.chParams.length ≠ 2 then .err .channelParameter
  else mapRes (inputChannel data) (List.range 2)

/-- The closures of `process_output_data` for channel `i`, `src/ur20_2fcnt_100.rs:165-187`. -/
def outputChannel (data : List Word) (i : Nat) : Res ChannelValue := do
  let k := i * 2
  let d0 ← idx data k
  let d1 ← idx data (k + 1)
  let control ← idx data (4 + i)
  let cmd := if testBit16 control 8 then some Command.start
    else if testBit16 control 9 then some Command.stop
    else none
  pure (.fcntOut { duration := (wide d0 d1).toNat * 1000, command := cmd })

/-- `process_output_data`, `src/ur20_2fcnt_100.rs:159-190`. -/
def Mod.processOutputData (_ : Mod) (data : List Word) : Res (List ChannelValue) :=
  if data.length ≠ 6 then .err .bufferLength
  else mapRes (outputChannel data) (List.range 2)

/-- `out[i] = w`: panics when out of bounds. -/
def setIdx (l : List Word) (i : Nat) (w : Word) : Res (List Word) :=
  if i < l.length then .ok (l.set i w) else .panic

/-- One round of the loop of `process_output_values`, `src/ur20_2fcnt_100.rs:202-230`. The
number of microseconds is `as_secs() as u32 * 1_000_000 + subsec_micros()`, computed in `u32`
(no overflow, since the duration is at most 8.388607 s at this point). -/
def encodeChannel (i : Nat) (v : ChannelValue) (out : List Word) : Res (List Word) :=
  match v with
  | .fcntOut v =>
    if v.duration > maxMeasurementDuration then .err .channelValue
    else do
      let micros : BitVec 32 :=
        BitVec.ofNat 32 (v.duration / 1000000000) * 1000000#32
          + BitVec.ofNat 32 (v.duration % 1000000000 / 1000)
      let lo := micros &&& 0x0000FFFF#32
      let hi := (micros &&& 0xFFFF0000#32) >>> 16
      let k := i * 2
      let out ← setIdx out k (hi.setWidth 16)
      let out ← setIdx out (k + 1) (lo.setWidth 16)
      match v.command with
      | some .start => setIdx out (i + 4) (setBit16 0#16 8)
      | some .stop => setIdx out (i + 4) (setBit16 0#16 9)
      | none => pure out
  | .disabled => .ok out
  | _ => .err .channelValue

/-- The loop of `process_output_values`, `src/ur20_2fcnt_100.rs:201-231`. -/
def encodeLoop (i : Nat) (out : List Word) : List ChannelValue → Res (List Word)
  | [] => .ok out
  | v :: vs => (encodeChannel i v out).bind fun out => encodeLoop (i + 1) out vs

/-- `process_output_values`, `src/ur20_2fcnt_100.rs:191-233`. -/
def Mod.processOutputValues (m : Mod) (values : List ChannelValue) : Res (List Word) :=
  if values.length ≠ ModuleType.UR20_2FCNT_100.channelCount then .err .channelValue
  else if m.chParams.length ≠ ModuleType.UR20_2FCNT_100.channelCount then .err .channelParameter
  else encodeLoop 0 (List.replicate 6 0#16) values

/-- `ProcessInput::hertz`, `src/ur20_2fcnt_100.rs:34-39`: all conversions and operations in
`f32`. -/
def hertz (v : FcntIn) : Option F32 :=
  v.duration.map fun d =>
    F32.lit (v.count.toNat : Rat)
      / (F32.lit ((d / 1000000000 : Nat) : Rat)
        + F32.lit ((d % 1000000000 : Nat) : Rat) / F32.lit 1000000000)

end Fcnt

/-! UR20-PF-O-1DI-SIL, `src/ur20_pf_o_1di_sil.rs`. -/
namespace Sil

/-- `from_modbus_parameter_data`, `src/ur20_pf_o_1di_sil.rs:44-51`; the module has no data. -/
def fromModbusParameterData (data : List Word) : Res Unit :=
  if !data.isEmpty then .err .bufferLength else .ok ()

/-- `process_input_data`, `src/ur20_pf_o_1di_sil.rs:60-78`. The two reserved bytes of the second
word are read but not used. -/
def processInputData (data : List Word) : Res (List ChannelValue) :=
  if data.length ≠ 2 then .err .bufferLength
  else do
    let w ← idx data 0
    let byte0 := loByte w
    let byte1 := hiByte w
    let _ ← idx data 1
    pure [.silPFIn {
      safetyInput := testBit byte0 0
      autostart := testBit byte0 2
      manualStart := testBit byte0 3
      safetyInputChannel1 := testBit byte0 4
      safetyInputChannel2 := testBit byte0 5
      volt24SafeOutput := testBit byte1 0
      volt24Dc := testBit byte1 2 }]

end Sil

end Ur20
