import Verif.Model.AnalogIn
import Verif.Model.Fcnt
import Verif.Model.Com

/-!
# The Modbus TCP coupler (`src/ur20_fbc_mod_tcp.rs`)
-/

namespace Ur20

/-- `ADDR_PACKED_PROCESS_INPUT_DATA`, `src/ur20_fbc_mod_tcp.rs:15`. -/
def addrPackedProcessInputData : Word := 0x0000#16

/-- `ADDR_PACKED_PROCESS_OUTPUT_DATA`, `src/ur20_fbc_mod_tcp.rs:16`. -/
def addrPackedProcessOutputData : Word := 0x0800#16

/-- `ADDR_CURRENT_MODULE_LIST`, `src/ur20_fbc_mod_tcp.rs:22`. -/
def addrCurrentModuleList : Word := 0x2A00#16

/-- `ADDR_MODULE_OFFSETS`, `src/ur20_fbc_mod_tcp.rs:23`. -/
def addrModuleOffsets : Word := 0x2B00#16

/-- `ADDR_MODULE_PARAMETERS`, `src/ur20_fbc_mod_tcp.rs:24`. -/
def addrModuleParameters : Word := 0xC000#16

/-- `Box<dyn ProcessModbusTcpData>`: one constructor per module that `Coupler::new` supports,
`src/ur20_fbc_mod_tcp.rs:112-198`. -/
inductive Module where
  | di (m : Di.Mod)
  | dout (m : Do.Mod)
  | do16
  | ro (m : Ro.Mod)
  | ao (m : Ao.Mod)
  | aoDiag (m : AoDiag.Mod)
  | rtd (m : Rtd.Mod)
  | aiDiag (m : AiDiag.Mod)
  | ai (m : Ai.Mod)
  | aiI (m : AiI.Mod)
  | tc (m : Tc.Mod)
  | fcnt (m : Fcnt.Mod)
  | com (m : Com.Mod)
  | sil
  deriving DecidableEq

namespace Module

/-- `Module::module_type` of each module: `src/ur20_di_generic.rs:74`, `src/ur20_do_generic.rs:63`,
`src/ur20_16do_p.rs:26`, `src/ur20_4ro_co_255.rs:32`, `src/ur20_4ao_ui_16.rs:44`,
`src/ur20_4ao_ui_16_diag.rs:46`, `src/ur20_4ai_rtd_diag.rs:77`, `src/ur20_4ai_ui_16_diag.rs:69`,
`src/ur20_ai_ui_generic.rs:96`, `src/ur20_8ai_i_16_diag_hd.rs:69`, `src/ur20_4ai_tc_diag.rs:19`,
`src/ur20_2fcnt_100.rs:102`, `src/ur20_1com_232_485_422.rs:311`,
`src/ur20_pf_o_1di_sil.rs:39`. -/
def moduleType : Module → ModuleType
  | di m => m.moduleType
  | dout m => m.moduleType
  | do16 => .UR20_16DO_P
  | ro _ => .UR20_4RO_CO_255
  | ao _ => .UR20_4AO_UI_16
  | aoDiag _ => .UR20_4AO_UI_16_DIAG
  | rtd _ => .UR20_4AI_RTD_DIAG
  | aiDiag _ => .UR20_4AI_UI_16_DIAG
  | ai m => m.moduleType
  | aiI _ => .UR20_8AI_I_16_DIAG_HD
  | tc _ => .UR20_4AI_TC_DIAG
  | fcnt _ => .UR20_2FCNT_100
  | com _ => .UR20_1COM_232_485_422
  | sil => .UR20_PF_O_1DI_SIL

/-- `process_input_byte_count` of each module: `src/ur20_di_generic.rs:80`,
`src/ur20_do_generic.rs:68`, `src/ur20_16do_p.rs:32`, `src/ur20_4ro_co_255.rs:38`,
`src/ur20_4ao_ui_16.rs:50`, `src/ur20_4ao_ui_16_diag.rs:52`, `src/ur20_4ai_rtd_diag.rs:83`,
`src/ur20_4ai_ui_16_diag.rs:75`, `src/ur20_ai_ui_generic.rs:102`,
`src/ur20_8ai_i_16_diag_hd.rs:75`, `src/ur20_4ai_tc_diag.rs:126`, `src/ur20_2fcnt_100.rs:115`,
`src/ur20_1com_232_485_422.rs:317`, `src/ur20_pf_o_1di_sil.rs:54`. -/
def inputByteCount : Module → Nat
  | di m => m.inputByteCount
  | dout m => m.inputByteCount
  | do16 => 0
  | ro _ => 0
  | ao _ => 0
  | aoDiag _ => 0
  | rtd _ => 8
  | aiDiag _ => 8
  | ai m => m.inputByteCount
  | aiI _ => 16
  | tc _ => 8
  | fcnt _ => 20
  | com m => m.processDataLen.byteCount
  | sil => 4

/-- `process_output_byte_count` of each module: `src/ur20_di_generic.rs:83`,
`src/ur20_do_generic.rs:71`, `src/ur20_16do_p.rs:35`, `src/ur20_4ro_co_255.rs:41`,
`src/ur20_4ao_ui_16.rs:53`, `src/ur20_4ao_ui_16_diag.rs:55`, `src/ur20_4ai_rtd_diag.rs:86`,
`src/ur20_4ai_ui_16_diag.rs:78`, `src/ur20_ai_ui_generic.rs:106`,
`src/ur20_8ai_i_16_diag_hd.rs:78`, `src/ur20_4ai_tc_diag.rs:129`, `src/ur20_2fcnt_100.rs:118`,
`src/ur20_1com_232_485_422.rs:323`, `src/ur20_pf_o_1di_sil.rs:57`. -/
def outputByteCount : Module → Nat
  | di m => m.outputByteCount
  | dout m => m.outputByteCount
  | do16 => 2
  | ro _ => 1
  | ao _ => 8
  | aoDiag _ => 8
  | rtd _ => 0
  | aiDiag _ => 0
  | ai _ => 0
  | aiI _ => 0
  | tc _ => 0
  | fcnt _ => 12
  | com m => m.processDataLen.byteCount
  | sil => 0

/-- `process_input_data` of each module; output modules use the trait's default
(`src/ur20_fbc_mod_tcp.rs:32-38`). -/
def processInputData (m : Module) (data : List Word) : Res (List ChannelValue) :=
  match m with
  | di m => m.processInputData data
  | dout _ | do16 | ro _ | ao _ | aoDiag _ => defaultProcessData m.moduleType data
  | rtd m => m.processInputData data
  | aiDiag m => m.processInputData data
  | ai m => m.processInputData data
  | aiI m => m.processInputData data
  | tc m => m.processInputData data
  | fcnt m => m.processInputData data
  | com m => m.processInputData data
  | sil => Sil.processInputData data

/-- `process_output_data` of each module; input modules use the trait's default
(`src/ur20_fbc_mod_tcp.rs:40-46`). -/
def processOutputData (m : Module) (data : List Word) : Res (List ChannelValue) :=
  match m with
  | dout m => m.processOutputData data
  | do16 => Do16.processOutputData data
  | ro _ => Ro.processOutputData data
  | ao m => m.processOutputData data
  | aoDiag m => m.processOutputData data
  | aiDiag m => m.processOutputData data
  | fcnt m => m.processOutputData data
  | com m => m.processOutputData data
  | di _ | rtd _ | ai _ | aiI _ | tc _ | sil => defaultProcessData m.moduleType data

/-- `process_output_values` of each module; input modules use the trait's default
(`src/ur20_fbc_mod_tcp.rs:48-53`). -/
def processOutputValues (m : Module) (values : List ChannelValue) : Res (List Word) :=
  match m with
  | dout m => m.processOutputValues values
  | do16 => Do16.processOutputValues values
  | ro _ => Ro.processOutputValues values
  | ao m => m.processOutputValues values
  | aoDiag m => m.processOutputValues values
  | fcnt m => m.processOutputValues values
  | com m => m.processOutputValues values
  | di _ | rtd _ | aiDiag _ | ai _ | aiI _ | tc _ | sil =>
    defaultProcessOutputValues m.moduleType values

/-- The `match` of `Coupler::new` that creates a module from its parameter registers,
`src/ur20_fbc_mod_tcp.rs:112-198`; panics for unsupported types. -/
def create (t : ModuleType) (param : List Word) : Res Module :=
  match t with
  | .UR20_4DI_P => (Di.fromModbusParameterData .UR20_4DI_P param).map di
  | .UR20_8DI_P_2W => (Di.fromModbusParameterData .UR20_8DI_P_2W param).map di
  | .UR20_4DO_P => (Do.fromModbusParameterData .UR20_4DO_P param).map dout
  | .UR20_4DO_P_2A => (Do.fromModbusParameterData .UR20_4DO_P_2A param).map dout
  | .UR20_8DO_P => (Do.fromModbusParameterData .UR20_8DO_P param).map dout
  | .UR20_16DO_P => (Do16.fromModbusParameterData param).map fun _ => do16
  | .UR20_4RO_CO_255 => (Ro.fromModbusParameterData param).map ro
  | .UR20_4AO_UI_16 => (Ao.fromModbusParameterData param).map ao
  | .UR20_4AO_UI_16_DIAG => (AoDiag.fromModbusParameterData param).map aoDiag
  | .UR20_4AI_RTD_DIAG => (Rtd.fromModbusParameterData param).map rtd
  | .UR20_4AI_UI_16_DIAG => (AiDiag.fromModbusParameterData param).map aiDiag
  | .UR20_4AI_UI_12 => (Ai.fromModbusParameterData .UR20_4AI_UI_12 param).map ai
  | .UR20_4AI_UI_16 => (Ai.fromModbusParameterData .UR20_4AI_UI_16 param).map ai
  | .UR20_8AI_I_16_DIAG_HD => (AiI.fromModbusParameterData param).map aiI
  | .UR20_4AI_TC_DIAG => (Tc.fromModbusParameterData param).map tc
  | .UR20_2FCNT_100 => (Fcnt.fromModbusParameterData param).map fcnt
  | .UR20_1COM_232_485_422 => (Com.fromModbusParameterData param).map com
  | .UR20_PF_O_1DI_SIL => (Sil.fromModbusParameterData param).map fun _ => sil
  | _ => .panic

/-- The processor that `Coupler::new` registers for a serial module,
`src/ur20_fbc_mod_tcp.rs:185-188`. -/
def processor? : Module → Option Com.MessageProcessor
  | com m => some (Com.MessageProcessor.new m.processDataLen)
  | _ => none

end Module

/-- `ModuleOffset`, `src/ur20_fbc_mod_tcp.rs:65-68`. -/
structure ModuleOffset where
  input : Option Word
  output : Option Word
  deriving DecidableEq, Repr

/-- `CouplerConfig`, `src/ur20_fbc_mod_tcp.rs:91-100`. -/
structure CouplerConfig where
  modules : List ModuleType
  offsets : List Word
  params : List (List Word)
  deriving DecidableEq, Repr

/-- `Coupler`, `src/ur20_fbc_mod_tcp.rs:72-87`. The two hash maps are functions to `Option`. -/
structure Coupler where
  inValues : List (List ChannelValue)
  outValues : List (List ChannelValue)
  write : Address → Option ChannelValue
  modules : List Module
  offsets : List ModuleOffset
  processors : Nat → Option Com.MessageProcessor
  lastTxCnt : Nat

/-- `to_register_address`, `src/ur20_fbc_mod_tcp.rs:462-466`. -/
def toRegisterAddress (addr : Word) : Word × Nat :=
  ((addr &&& 0xFFF0#16) >>> 4, (addr &&& 0x000F#16).toNat)

/-- `to_bit_address`, `src/ur20_fbc_mod_tcp.rs:470-472`; `bit as u16` truncates. -/
def toBitAddress (addr : Word) (bit : Nat) : Word := (addr <<< 4) ||| BitVec.ofNat 16 bit

/-- `word_to_offset`, `src/ur20_fbc_mod_tcp.rs:456-458`. -/
def wordToOffset (word : Word) : Option Word := if word = 0xFFFF#16 then none else some word

/-- `offsets_of_process_data`, `src/ur20_fbc_mod_tcp.rs:327-336`: one entry per complete pair of
words. -/
def offsetsOfProcessData : List Word → List ModuleOffset
  | o :: i :: rest =>
    { input := wordToOffset i, output := wordToOffset o } :: offsetsOfProcessData rest
  | _ => []

/-- `prepare_raw_data_to_process`, `src/ur20_fbc_mod_tcp.rs:384-407`. `oc` tells whether overflow
checks are on: `start - addr` then panics on underflow, otherwise it wraps. -/
def prepareRawDataToProcess (oc : Bool) (offset addr : Word) (byteCount : Nat)
    (data : List Word) : Res (List Word) :=
  let (start, bit) := toRegisterAddress offset
  if oc && start.toNat < addr.toNat then .panic
  else
    let start := (start - addr).toNat
    let wordCount := if byteCount / 2 = 0 then 1 else byteCount / 2
    let stop := start + wordCount
    if stop > data.length then .err .bufferLength
    else
      let output := (data.drop start).take wordCount
      match bit with
      | 0 => .ok output
      | 8 => shiftData output
      | _ => .err .moduleOffset

/-- The closure of `process_input_data`, `src/ur20_fbc_mod_tcp.rs:345-357`. -/
def moduleInput (oc : Bool) (data : List Word) (m : Module) (offset : ModuleOffset) :
    Res (List ChannelValue) :=
  match offset.input with
  | some off => do
    let raw ← prepareRawDataToProcess oc off addrPackedProcessInputData m.inputByteCount data
    m.processInputData raw
  | none => .ok (List.replicate m.moduleType.channelCount .none)

/-- `process_input_data`, `src/ur20_fbc_mod_tcp.rs:339-359`. -/
def processInputData (oc : Bool) (modules : List (Module × ModuleOffset)) (data : List Word) :
    Res (List (List ChannelValue)) :=
  mapRes (fun p => moduleInput oc data p.1 p.2) modules

/-- The closure of `process_output_data`, `src/ur20_fbc_mod_tcp.rs:368-380`. -/
def moduleOutput (oc : Bool) (data : List Word) (m : Module) (offset : ModuleOffset) :
    Res (List ChannelValue) :=
  match offset.output with
  | some off => do
    let raw ← prepareRawDataToProcess oc off addrPackedProcessOutputData m.outputByteCount data
    m.processOutputData raw
  | none => .ok (List.replicate m.moduleType.channelCount .none)

/-- `process_output_data`, `src/ur20_fbc_mod_tcp.rs:362-382`. -/
def processOutputData (oc : Bool) (modules : List (Module × ModuleOffset)) (data : List Word) :
    Res (List (List ChannelValue)) :=
  mapRes (fun p => moduleOutput oc data p.1 p.2) modules

/-- Adding the encoded words of one module to the image, `src/ur20_fbc_mod_tcp.rs:423-449`.
`out[start]` is in bounds after the length check; `buf[0]` panics when the module has no
data. -/
def placeWords (out : List Word) (outOffset : Word) (data : List Word) : Res (List Word) :=
  let (start, bit) := toRegisterAddress outOffset
  if start.toNat < addrPackedProcessOutputData.toNat then .err .moduleOffset
  else
    let start := (start - addrPackedProcessOutputData).toNat
    match bit with
    | 0 => if out.length ≠ start then .err .moduleOffset else .ok (out ++ data)
    | 8 =>
      if out.length ≠ start + 1 then .err .moduleOffset
      else do
        let sharedLowByte := (← idx out start) &&& 0x00FF#16
        let buf := u16ToU8 data
        let sharedHighByte := (← idx buf 0).setWidth 16 <<< 8
        let word := sharedHighByte ||| sharedLowByte
        pure (out.set start word)
    | _ => .err .moduleOffset

/-- The loop of `process_output_values`, `src/ur20_fbc_mod_tcp.rs:420-451`, over the modules
zipped with their values. -/
def outputLoop (out : List Word) : List ((Module × ModuleOffset) × List ChannelValue) →
    Res (List Word)
  | [] => .ok out
  | ((m, offset), values) :: rest =>
    match offset.output with
    | some outOffset => do
      let data ← m.processOutputValues values
      let out ← placeWords out outOffset data
      outputLoop out rest
    | none => outputLoop out rest

/-- `process_output_values`, `src/ur20_fbc_mod_tcp.rs:410-454`. -/
def processOutputValues (modules : List (Module × ModuleOffset))
    (values : List (List ChannelValue)) : Res (List Word) :=
  if modules.length ≠ values.length then .err .channelValue
  else outputLoop [] (modules.zip values)

/-- `param_register_count`, `src/ur20_fbc_mod_tcp.rs:479-521`; panics for unsupported types. -/
def paramRegisterCount : ModuleType → Res Nat
  | .UR20_4DI_P | .UR20_4DI_P_3W => .ok 4
  | .UR20_8DI_P_2W | .UR20_8DI_P_3W => .ok 8
  | .UR20_4DO_P | .UR20_4DO_P_2A => .ok 4
  | .UR20_8DO_P => .ok 8
  | .UR20_16DO_P => .ok 0
  | .UR20_4RO_CO_255 => .ok 4
  | .UR20_8AI_I_16_DIAG_HD => .ok (1 + 8 * 4)
  | .UR20_4AI_UI_16_DIAG => .ok (1 + 4 * 5)
  | .UR20_4AI_UI_12 | .UR20_4AI_UI_16 => .ok (1 + 4 * 2)
  | .UR20_4AI_TC_DIAG => .ok (1 + 4 * 7)
  | .UR20_4AO_UI_16 => .ok (4 * 3)
  | .UR20_4AO_UI_16_DIAG => .ok (4 * 4)
  | .UR20_4AI_RTD_DIAG => .ok (1 + 4 * 7)
  | .UR20_2FCNT_100 => .ok 2
  | .UR20_1COM_232_485_422 => .ok 10
  | .UR20_PF_O_1DI_SIL => .ok 0
  | _ => .panic

/-- One entry of `param_addresses_and_register_counts`, `src/ur20_fbc_mod_tcp.rs:529-534`:
`(idx * 256) as u16` truncates, the addition panics on overflow when overflow checks are on and
wraps otherwise. -/
def paramAddress (oc : Bool) (p : ModuleType × Nat) : Res (Word × Nat) :=
  let off : Word := BitVec.ofNat 16 (p.2 * 256)
  if oc && addrModuleParameters.toNat + off.toNat ≥ 65536 then .panic
  else do
    let n ← paramRegisterCount p.1
    pure (addrModuleParameters + off, n)

/-- `param_addresses_and_register_counts`, `src/ur20_fbc_mod_tcp.rs:525-536`. -/
def paramAddressesAndRegisterCounts (oc : Bool) (modules : List ModuleType) :
    Res (List (Word × Nat)) :=
  mapRes (paramAddress oc) modules.zipIdx

/-- The loop of `module_list_from_registers`, `src/ur20_fbc_mod_tcp.rs:544-551`, over an even
number of registers. `(hi << 16) + lo` does not overflow. -/
def moduleListLoop : List Word → Res (List ModuleType)
  | hi :: lo :: rest => do
    let id : BitVec 32 := (hi.setWidth 32 <<< 16) + lo.setWidth 32
    let m ← ModuleType.tryFromU32 id
    let ms ← moduleListLoop rest
    pure (m :: ms)
  | _ => .ok []

/-- `module_list_from_registers`, `src/ur20_fbc_mod_tcp.rs:539-553`. -/
def moduleListFromRegisters (registers : List Word) : Res (List ModuleType) :=
  if registers.isEmpty || registers.length % 2 ≠ 0 then .err .registerCount
  else moduleListLoop registers

/-- `CouplerConfig::validate`, `src/ur20_fbc_mod_tcp.rs:314-322`. -/
def CouplerConfig.validate (cfg : CouplerConfig) : Res Unit :=
  if cfg.modules.length ≠ cfg.params.length then .err .bufferLength
  else if cfg.modules.length * 2 ≠ cfg.offsets.length then .err .moduleOffset
  else .ok ()

namespace Coupler

/-- The loop of `Coupler::new`, `src/ur20_fbc_mod_tcp.rs:110-200`: `i` is the loop index, the
accumulators are the modules and processors created so far. -/
def newLoop (params : List (List Word)) (i : Nat) (modules : List Module)
    (processors : Nat → Option Com.MessageProcessor) :
    List ModuleType → Res (List Module × (Nat → Option Com.MessageProcessor))
  | [] => .ok (modules, processors)
  | t :: ts => do
    let param ← idx params i
    let m ← Module.create t param
    let processors := match m.processor? with
      | some p => fun n => if n = i then some p else processors n
      | none => processors
    newLoop params (i + 1) (modules ++ [m]) processors ts

/-- `Coupler::new`, `src/ur20_fbc_mod_tcp.rs:103-210`. -/
def new (cfg : CouplerConfig) : Res Coupler := do
  cfg.validate
  let offsets := offsetsOfProcessData cfg.offsets
  let (modules, processors) ← newLoop cfg.params 0 [] (fun _ => none) cfg.modules
  pure {
    inValues := [], outValues := [], write := fun _ => none, lastTxCnt := 0,
    modules := modules, offsets := offsets, processors := processors }

/-- `is_valid_addr`, `src/ur20_fbc_mod_tcp.rs:212-215`. -/
def isValidAddr (c : Coupler) (addr : Address) : Bool :=
  match c.modules[addr.module]? with
  | some m => decide (addr.channel < m.moduleType.channelCount)
  | none => false

/-- `inputs`, `src/ur20_fbc_mod_tcp.rs:219-221`. -/
def inputs (c : Coupler) : List (List ChannelValue) := c.inValues

/-- `outputs`, `src/ur20_fbc_mod_tcp.rs:225-227`. -/
def outputs (c : Coupler) : List (List ChannelValue) := c.outValues

/-- `reader(n)` is `Some`, `src/ur20_fbc_mod_tcp.rs:230-234`. -/
def hasReader (c : Coupler) (n : Nat) : Bool := (c.processors n).isSome

/-- `writer(n)` is `Some`, `src/ur20_fbc_mod_tcp.rs:237-241`. -/
def hasWriter (c : Coupler) (n : Nat) : Bool := (c.processors n).isSome

/-- Replace the processor of module `n`. -/
def setProcessor (c : Coupler) (n : Nat) (p : Com.MessageProcessor) : Coupler :=
  { c with processors := fun k => if k = n then some p else c.processors k }

/-- `reader(n).map(|r| r.read(buf))` with a buffer of `len` bytes,
`src/ur20_fbc_mod_tcp.rs:230-234`: the new state and the bytes read, or nothing if there is no
reader. -/
def read (c : Coupler) (n len : Nat) : Res (Coupler × Option (List Byte)) :=
  match c.processors n with
  | some p => (p.read len).bind fun r => .ok (c.setProcessor n r.1, some r.2)
  | none => .ok (c, none)

/-- `writer(n).map(|w| w.write(buf))`, `src/ur20_fbc_mod_tcp.rs:237-241`: the new state and the
number of bytes accepted, or nothing if there is no writer. -/
def writeBytes (c : Coupler) (n : Nat) (buf : List Byte) : Coupler × Option Nat :=
  match c.processors n with
  | some p => (c.setProcessor n (p.write buf).1, some (p.write buf).2)
  | none => (c, none)

/-- `HashMap::insert`. -/
def insert (w : Address → Option ChannelValue) (a : Address) (v : ChannelValue) :
    Address → Option ChannelValue :=
  fun b => if b = a then some v else w b

/-- `HashMap::remove`, the remaining map. -/
def remove (w : Address → Option ChannelValue) (a : Address) : Address → Option ChannelValue :=
  fun b => if b = a then none else w b

/-- `set_output`, `src/ur20_fbc_mod_tcp.rs:243-249`. -/
def setOutput (c : Coupler) (addr : Address) (value : ChannelValue) : Coupler × Res Unit :=
  if !c.isValidAddr addr then (c, .err .address)
  else ({ c with write := insert c.write addr value }, .ok ())

/-- The part of the coupler's state that the loop of `next` changes. -/
structure LoopState where
  write : Address → Option ChannelValue
  processors : Nat → Option Com.MessageProcessor
  lastTxCnt : Nat

/-- What the loop of `next` computes for one module: the values shown by `inputs()` and
`outputs()` afterwards, and the values to be encoded. -/
structure ModuleResult where
  inV : List ChannelValue
  outV : List ChannelValue
  nextV : List ChannelValue

/-- The inner loop over the channels of a module without processor,
`src/ur20_fbc_mod_tcp.rs:293-300`, from channel `i` on. -/
def applyWrites (mNr i : Nat) (write : Address → Option ChannelValue) :
    List ChannelValue → (Address → Option ChannelValue) × List ChannelValue
  | [] => (write, [])
  | v :: vs =>
    let v' := (write ⟨mNr, i⟩).getD v
    let r := applyWrites mNr (i + 1) (remove write ⟨mNr, i⟩) vs
    (r.1, v' :: r.2)

/-- The body of the loop of `next` for a serial module whose values are `ComRsIn` and
`ComRsOut`, `src/ur20_fbc_mod_tcp.rs:269-289`. `in_v[0]`, `out_v[0]` and
`next_out_values[m_nr][0]` are the heads of the lists, `in_tl` and `out_tl` their tails. -/
def serialStep (mNr : Nat) (p : Com.MessageProcessor) (st : LoopState) (inV : RsIn)
    (inTl : List ChannelValue) (outV : RsOut) (outTl : List ChannelValue) :
    LoopState × ModuleResult :=
  let outBytes : ChannelValue :=
    if !outV.data.isEmpty && outV.txCnt != st.lastTxCnt then .bytes outV.data else .none
  let p := match st.write ⟨mNr, 0⟩ with
    | some (.bytes data) => (p.write data).1
    | _ => p
  let write := remove st.write ⟨mNr, 0⟩
  let (p, rsOut) := p.next inV outV
  let inBytes : ChannelValue :=
    if inV.dataAvailable && !inV.data.isEmpty then .bytes inV.data else .none
  ({ write := write
     processors := fun k => if k = mNr then some p else st.processors k
     lastTxCnt := outV.txCnt },
   { inV := inBytes :: inTl, outV := outBytes :: outTl, nextV := .comRsOut rsOut :: outTl })

/-- The body of the loop of `next`, `src/ur20_fbc_mod_tcp.rs:266-301`. The loop writes
`in_bytes`, `out_bytes` and `next_out_values` only at the index of the current module, and the
byte maps are copied to `in_values` and `out_values` after the loop; here these are the result
of the module. -/
def moduleStep (mNr : Nat) (st : LoopState) (inV outV : List ChannelValue) :
    Res (LoopState × ModuleResult) :=
  match st.processors mNr with
  | some p =>
    match inV with
    | [] => .panic
    | .comRsIn i :: inTl =>
      match outV with
      | [] => .panic
      | .comRsOut o :: outTl => .ok (serialStep mNr p st i inTl o outTl)
      | _ :: _ => .ok (st, ⟨inV, outV, outV⟩)
    | _ :: _ => .ok (st, ⟨inV, outV, outV⟩)
  | none =>
    let r := applyWrites mNr 0 st.write outV
    .ok ({ st with write := r.1 }, ⟨inV, outV, r.2⟩)

/-- The loop of `next`, `src/ur20_fbc_mod_tcp.rs:265-302`, from module `mNr` on. -/
def cycleLoop (mNr : Nat) (st : LoopState) :
    List (List ChannelValue × List ChannelValue) → Res (LoopState × List ModuleResult)
  | [] => .ok (st, [])
  | (inV, outV) :: rest => do
    let (st, r) ← moduleStep mNr st inV outV
    let (st, rs) ← cycleLoop (mNr + 1) st rest
    pure (st, r :: rs)

/-- `next`, `src/ur20_fbc_mod_tcp.rs:251-310`: the state after the call, also when it fails, and
the result. (Nothing is claimed about the state after a panic.) -/
def next (oc : Bool) (c : Coupler) (processInput processOutput : List Word) :
    Coupler × Res (List Word) :=
  let infos := c.modules.zip c.offsets
  match processInputData oc infos processInput with
  | .err e => (c, .err e)
  | .panic => (c, .panic)
  | .ok inValues =>
    let c := { c with inValues := inValues }
    match processOutputData oc infos processOutput with
    | .err e => (c, .err e)
    | .panic => (c, .panic)
    | .ok outValues =>
      let c := { c with outValues := outValues }
      match cycleLoop 0 ⟨c.write, c.processors, c.lastTxCnt⟩ (inValues.zip outValues) with
      | .err e => (c, .err e)
      | .panic => (c, .panic)
      | .ok (st, rs) =>
        let c := { c with
          inValues := rs.map (·.inV), outValues := rs.map (·.outV), write := st.write,
          processors := st.processors, lastTxCnt := st.lastTxCnt }
        (c, processOutputValues infos (rs.map (·.nextV)))

end Coupler

end Ur20
