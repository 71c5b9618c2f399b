import Verif.Model.Coupler

/-!
# Specification: histories of a coupler

What an application can do with a coupler after `Coupler::new`. The field `write` of the state is
the set of pending writes: values set by `set_output` that no cycle has used yet.
-/

namespace Ur20.Spec

/-- A call on a coupler. -/
inductive COp where
  | setOutput (a : Address) (v : ChannelValue)
  | next (input output : List Word)
  /-- `reader(n)` and a read with a buffer of `len` bytes -/
  | read (n len : Nat)
  /-- `writer(n)` and a write -/
  | write (n : Nat) (buf : List Byte)

/-- The state after a call, whether it succeeds or not. -/
def COp.apply (oc : Bool) (c : Coupler) : COp → Coupler
  | .setOutput a v => (c.setOutput a v).1
  | .next i o => (c.next oc i o).1
  | .read n len => match c.read n len with
    | .ok r => r.1
    | _ => c
  | .write n buf => (c.writeBytes n buf).1

/-- The state after a sequence of calls. -/
def runC (oc : Bool) (c : Coupler) (ops : List COp) : Coupler := ops.foldl (COp.apply oc) c

/-- `c` is the state of a coupler built from `cfg` after some history of calls. -/
def ReachableFrom (oc : Bool) (cfg : CouplerConfig) (c : Coupler) : Prop :=
  ∃ c0 ops, Coupler.new cfg = .ok c0 ∧ c = runC oc c0 ops

/-- The modules of a coupler with their offsets. -/
def infos (c : Coupler) : List (Module × ModuleOffset) := c.modules.zip c.offsets

/-- Module `j` of the coupler is `m` with these offsets. -/
def ModuleAt (c : Coupler) (j : Nat) (m : Module) (off : ModuleOffset) : Prop :=
  c.modules[j]? = some m ∧ c.offsets[j]? = some off

/-- The serial module. -/
def IsSerial (m : Module) : Prop := ∃ cm, m = .com cm

end Ur20.Spec
