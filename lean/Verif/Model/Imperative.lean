import Verif.Model.Coupler
import Verif.Model.StdIo

/-!
# The coupler, statement by statement (`src/ur20_fbc_mod_tcp.rs`)

`Model/Coupler.lean` describes the loops of the coupler by structural recursion and its hash maps
by functions. This file keeps the loop indices, the assignments to places in vectors (which panic
when out of bounds), the local hash maps and the iteration over them. The order of such an
iteration, which depends on a random seed in Rust, is a parameter of the model.
-/

namespace Ur20.Imp

/-- `HashMap<α, β>`: its entries. -/
abbrev HMap (α β : Type) := List (α × β)

namespace HMap

variable {α β : Type} [DecidableEq α]

/-- `HashMap::get`. -/
def get : HMap α β → α → Option β
  | [], _ => none
  | (a, b) :: h, k => if a = k then some b else get h k

/-- `HashMap::remove`, the remaining map. -/
def remove (h : HMap α β) (k : α) : HMap α β := h.filter fun e => decide (e.1 ≠ k)

/-- `HashMap::insert`. -/
def insert (h : HMap α β) (k : α) (v : β) : HMap α β := (k, v) :: remove h k

end HMap

/-- The orders in which one call of `next` iterates over its two local hash maps,
`src/ur20_fbc_mod_tcp.rs:303` and `:306`: any rearrangement of the entries. -/
structure Orders where
  inOrd : HMap Nat ChannelValue → List (Nat × ChannelValue)
  outOrd : HMap Nat ChannelValue → List (Nat × ChannelValue)
  inPerm : ∀ h, (inOrd h).Perm h
  outPerm : ∀ h, (outOrd h).Perm h

/-- `Coupler`, `src/ur20_fbc_mod_tcp.rs:72-87`. -/
structure Coupler where
  inValues : List (List ChannelValue)
  outValues : List (List ChannelValue)
  write : HMap Address ChannelValue
  modules : List Module
  offsets : List ModuleOffset
  processors : HMap Nat Com.MessageProcessor
  lastTxCnt : Nat

/-- The loop of `offsets_of_process_data`, `src/ur20_fbc_mod_tcp.rs:329-334`, for the indices of
the list; `data[i * 2 + 1]` is evaluated first. -/
def offsetsLoop (data : List Word) (offsets : List ModuleOffset) :
    List Nat → Res (List ModuleOffset)
  | [] => .ok offsets
  | i :: is => do
    let input := wordToOffset (← idx data (i * 2 + 1))
    let output := wordToOffset (← idx data (i * 2))
    offsetsLoop data (offsets ++ [{ input := input, output := output }]) is

/-- `offsets_of_process_data`, `src/ur20_fbc_mod_tcp.rs:327-336`. -/
def offsetsOfProcessData (data : List Word) : Res (List ModuleOffset) :=
  offsetsLoop data [] (List.range (data.length / 2))

/-- The loop of `module_list_from_registers`, `src/ur20_fbc_mod_tcp.rs:544-551`. -/
def moduleListLoop (registers : List Word) (list : List ModuleType) :
    List Nat → Res (List ModuleType)
  | [] => .ok list
  | i :: is => do
    let hi := (← idx registers (i * 2)).setWidth 32
    let lo := (← idx registers (i * 2 + 1)).setWidth 32
    let m ← ModuleType.tryFromU32 ((hi <<< 16) + lo)
    moduleListLoop registers (list ++ [m]) is

/-- `module_list_from_registers`, `src/ur20_fbc_mod_tcp.rs:539-553`. -/
def moduleListFromRegisters (registers : List Word) : Res (List ModuleType) :=
  if registers.isEmpty || registers.length % 2 ≠ 0 then .err .registerCount
  else moduleListLoop registers [] (List.range (registers.length / 2))

/-- The loop of `process_output_values`, `src/ur20_fbc_mod_tcp.rs:420-451`, from module `i` on;
`values[i]` is evaluated for modules with an output offset only. -/
def outputLoop (values : List (List ChannelValue)) (i : Nat) (out : List Word) :
    List (Module × ModuleOffset) → Res (List Word)
  | [] => .ok out
  | (m, offset) :: rest =>
    match offset.output with
    | some outOffset => do
      let data ← m.processOutputValues (← idx values i)
      let out ← placeWords out outOffset data
      outputLoop values (i + 1) out rest
    | none => outputLoop values (i + 1) out rest

/-- `process_output_values`, `src/ur20_fbc_mod_tcp.rs:410-454`. -/
def processOutputValues (modules : List (Module × ModuleOffset))
    (values : List (List ChannelValue)) : Res (List Word) :=
  if modules.length ≠ values.length then .err .channelValue
  else outputLoop values 0 [] modules

/-- The loop of `Coupler::new`, `src/ur20_fbc_mod_tcp.rs:110-200`, from module `i` on. -/
def newLoop (params : List (List Word)) (i : Nat) (modules : List Module)
    (processors : HMap Nat Com.MessageProcessor) :
    List ModuleType → Res (List Module × HMap Nat Com.MessageProcessor)
  | [] => .ok (modules, processors)
  | t :: ts => do
    let param ← idx params i
    let m ← Module.create t param
    let processors := match m.processor? with
      | some p => processors.insert i p
      | none => processors
    newLoop params (i + 1) (modules ++ [m]) processors ts

/-- `Coupler::new`, `src/ur20_fbc_mod_tcp.rs:103-210`. -/
def new (cfg : CouplerConfig) : Res Coupler := do
  cfg.validate
  let offsets ← offsetsOfProcessData cfg.offsets
  let (modules, processors) ← newLoop cfg.params 0 [] [] cfg.modules
  pure {
    inValues := [], outValues := [], write := [], lastTxCnt := 0,
    modules := modules, offsets := offsets, processors := processors }

/-- `is_valid_addr`, `src/ur20_fbc_mod_tcp.rs:212-215`: `&&` does not evaluate its right hand side
if the left one is false. -/
def isValidAddr (c : Coupler) (addr : Address) : Res Bool :=
  if addr.module < c.modules.length then do
    let m ← idx c.modules addr.module
    pure (decide (addr.channel < m.moduleType.channelCount))
  else .ok false

/-- `set_output`, `src/ur20_fbc_mod_tcp.rs:243-249`. -/
def setOutput (c : Coupler) (addr : Address) (value : ChannelValue) : Coupler × Res Unit :=
  match isValidAddr c addr with
  | .ok true => ({ c with write := c.write.insert addr value }, .ok ())
  | .ok false => (c, .err .address)
  | .err e => (c, .err e)
  | .panic => (c, .panic)

/-- `reader(n).map(|r| r.read(buf))` with a buffer of `len` bytes,
`src/ur20_fbc_mod_tcp.rs:230-234`. -/
def read (c : Coupler) (n len : Nat) : Res (Coupler × Option (List Byte)) :=
  match c.processors.get n with
  | some p => (p.read len).bind fun r =>
    .ok ({ c with processors := c.processors.insert n r.1 }, some r.2)
  | none => .ok (c, none)

/-- `writer(n).map(|w| w.write(buf))`, `src/ur20_fbc_mod_tcp.rs:237-241`. -/
def writeBytes (c : Coupler) (n : Nat) (buf : List Byte) : Coupler × Option Nat :=
  match c.processors.get n with
  | some p => ({ c with processors := c.processors.insert n (p.write buf).1 }, some (p.write buf).2)
  | none => (c, none)

/-- The coupler and the local variables of `next`, `src/ur20_fbc_mod_tcp.rs:261-263`. -/
structure Frame where
  self : Coupler
  nextOut : List (List ChannelValue)
  inBytes : HMap Nat ChannelValue
  outBytes : HMap Nat ChannelValue

/-- Statements: they change the frame and end normally, by an error or by a panic. -/
def Stm (α : Type) := Frame → Frame × Res α

namespace Stm

/-- Sequential composition. -/
def bind {α β : Type} (x : Stm α) (f : α → Stm β) : Stm β := fun s =>
  match x s with
  | (s, .ok a) => f a s
  | (s, .err e) => (s, .err e)
  | (s, .panic) => (s, .panic)

instance : Monad Stm where
  pure a := fun s => (s, .ok a)
  bind := bind

/-- The current frame. -/
def frame : Stm Frame := fun s => (s, .ok s)

/-- An assignment. -/
def set (f : Frame → Frame) : Stm Unit := fun s => (f s, .ok ())

/-- An expression that can fail. -/
def eval {α : Type} (r : Res α) : Stm α := fun s => (s, r)

end Stm

/-- The assignment `v[i][j] = x`: panics when out of bounds. -/
def assign (v : List (List ChannelValue)) (i j : Nat) (x : ChannelValue) :
    Res (List (List ChannelValue)) := do
  let row ← idx v i
  if j < row.length then pure (v.set i (row.set j x)) else .panic

/-- `next_out_values[i][j] = x`, `src/ur20_fbc_mod_tcp.rs:285`, `:298`. -/
def assignNext (i j : Nat) (x : ChannelValue) : Stm Unit := do
  let s ← Stm.frame
  let v ← Stm.eval (assign s.nextOut i j x)
  Stm.set fun s => { s with nextOut := v }

/-- `self.write.remove(&Address { module, channel })`, `src/ur20_fbc_mod_tcp.rs:277`, `:294`. -/
def takeWrite (a : Address) : Stm (Option ChannelValue) := do
  let s ← Stm.frame
  Stm.set fun s => { s with self := { s.self with write := s.self.write.remove a } }
  pure (s.self.write.get a)

/-- A method call on `p`, the reference to the processor of module `n` from
`src/ur20_fbc_mod_tcp.rs:266`; it is in the map, so the panic is not reached. -/
def callProcessor {α : Type} (n : Nat) (f : Com.MessageProcessor → Com.MessageProcessor × α) :
    Stm α := do
  let s ← Stm.frame
  match s.self.processors.get n with
  | some p =>
    Stm.set fun s =>
      { s with self := { s.self with processors := s.self.processors.insert n (f p).1 } }
    pure (f p).2
  | none => Stm.eval .panic

/-- `p.write_all(data)?`, `src/ur20_fbc_mod_tcp.rs:281`. -/
def writeAll (n : Nat) (data : List Byte) : Stm Unit := do
  let ok ← callProcessor n fun p => p.writeAll data
  if ok then pure () else Stm.eval (.err (.io "failed to write whole buffer"))

/-- The body of the loop for a serial module, `src/ur20_fbc_mod_tcp.rs:269-289`. -/
def serialBody (n : Nat) (inV : RsIn) (outV : RsOut) : Stm Unit := do
  Stm.set fun s => { s with outBytes := s.outBytes.insert n .none }
  Stm.set fun s => { s with inBytes := s.inBytes.insert n .none }
  let s ← Stm.frame
  if !outV.data.isEmpty && outV.txCnt != s.self.lastTxCnt then
    Stm.set fun s => { s with outBytes := s.outBytes.insert n (.bytes outV.data) }
  Stm.set fun s => { s with self := { s.self with lastTxCnt := outV.txCnt } }
  match ← takeWrite ⟨n, 0⟩ with
  | some (.bytes data) => writeAll n data
  | _ => pure ()
  let rsOut ← callProcessor n fun p => p.next inV outV
  assignNext n 0 (.comRsOut rsOut)
  if inV.dataAvailable && !inV.data.isEmpty then
    Stm.set fun s => { s with inBytes := s.inBytes.insert n (.bytes inV.data) }

/-- The loop over the channels of another module, `src/ur20_fbc_mod_tcp.rs:293-300`, from channel
`i` on. -/
def channelLoop (n i : Nat) : List ChannelValue → Stm Unit
  | [] => pure ()
  | _ :: vs => do
    match ← takeWrite ⟨n, i⟩ with
    | some v => assignNext n i v
    | none => pure ()
    channelLoop n (i + 1) vs

/-- The body of the loop, `src/ur20_fbc_mod_tcp.rs:266-301`. -/
def body (n : Nat) (inV outV : List ChannelValue) : Stm Unit := do
  let s ← Stm.frame
  match s.self.processors.get n with
  | some _ =>
    match ← Stm.eval (idx inV 0) with
    | .comRsIn i =>
      match ← Stm.eval (idx outV 0) with
      | .comRsOut o => serialBody n i o
      | _ => pure ()
    | _ => pure ()
  | none => channelLoop n 0 outV

/-- The loop, `src/ur20_fbc_mod_tcp.rs:265-302`, from module `n` on. -/
def moduleLoop (n : Nat) : List (List ChannelValue × List ChannelValue) → Stm Unit
  | [] => pure ()
  | (inV, outV) :: rest => do
    body n inV outV
    moduleLoop (n + 1) rest

/-- `for (m_nr, v) in in_bytes { self.in_values[m_nr][0] = v }`,
`src/ur20_fbc_mod_tcp.rs:303-305`, and the same for the outputs, `:306-308`, for the entries in
the order of the iteration. -/
def assignAll (v : List (List ChannelValue)) : List (Nat × ChannelValue) →
    Res (List (List ChannelValue))
  | [] => .ok v
  | (n, x) :: es => do
    let v ← assign v n 0 x
    assignAll v es

/-- `next` after the declarations of its local variables, `src/ur20_fbc_mod_tcp.rs:265-309`. -/
def cycle (ord : Orders) (infos : List (Module × ModuleOffset))
    (values : List (List ChannelValue × List ChannelValue)) : Stm (List Word) := do
  moduleLoop 0 values
  let s ← Stm.frame
  let v ← Stm.eval (assignAll s.self.inValues (ord.inOrd s.inBytes))
  Stm.set fun s => { s with self := { s.self with inValues := v } }
  let v ← Stm.eval (assignAll s.self.outValues (ord.outOrd s.outBytes))
  Stm.set fun s => { s with self := { s.self with outValues := v } }
  Stm.eval (processOutputValues infos s.nextOut)

/-- `next`, `src/ur20_fbc_mod_tcp.rs:251-310`. -/
def next (oc : Bool) (ord : Orders) (c : Coupler) (processInput processOutput : List Word) :
    Coupler × Res (List Word) :=
  let infos := c.modules.zip c.offsets
  match processInputData oc infos processInput with
  | .err e => (c, .err e)
  | .panic => (c, .panic)
  | .ok inValues =>
    let c := { c with inValues := inValues }
    match processOutputData oc infos processOutput with
    | .err e => (c, .err e)
    | .panic => (c, .panic)
    | .ok outValues =>
      let c := { c with outValues := outValues }
      let r := cycle ord infos (c.inValues.zip c.outValues)
        { self := c, nextOut := c.outValues, inBytes := [], outBytes := [] }
      (r.1.self, r.2)

end Ur20.Imp
