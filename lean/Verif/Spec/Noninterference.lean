import Verif.Spec.Trace
import Verif.Spec.Cycle
import Verif.Spec.SerialImage

/-!
# Specification: what one module of a coupler depends on

The part of a history that concerns one module, and the part of the results that it determines.
-/

namespace Ur20.Spec

/-- The `n` bytes of an image from byte `pos` on. -/
def region (img : List Word) (pos n : Nat) : List (Option Byte) :=
  (List.range n).map fun k => byteAt img (pos + k)

/-- The place of a module: its type, its parameter words and its offset words. -/
structure Place where
  type : ModuleType
  par : List Word
  output : Word
  input : Word

/-- The bytes of a module in an input image. -/
def Place.inBytes (p : Place) (img : List Word) : List (Option Byte) :=
  if p.input = noOffset then [] else region img (p.input.toNat / 8) (inputBytes p.type p.par)

/-- The bytes of a module in an output image. -/
def Place.outBytes (p : Place) (img : List Word) : List (Option Byte) :=
  if p.output = noOffset then [] else region img (outByte p.output) (outputBytes p.type p.par)

/-- Two input offset words of a module mean the same to it: it has input data with both or with
none, and starts in the same byte of a register or has just one byte. -/
def InputLike (t : ModuleType) (par : List Word) (i i' : Word) : Prop :=
  (i = noOffset ↔ i' = noOffset) ∧
    (i ≠ noOffset → i.toNat % 16 = i'.toNat % 16 ∨ inputBytes t par = 1)

/-- Two output offset words of a module mean the same to it. -/
def OutputLike (t : ModuleType) (par : List Word) (o o' : Word) : Prop :=
  (o = noOffset ↔ o' = noOffset) ∧
    (o ≠ noOffset → o.toNat % 16 = o'.toNat % 16 ∨ outputBytes t par = 1)

/-- What a module sees of a call: calls with its number, and its own bytes of the images of a
cycle. -/
inductive View where
  | set (channel : Nat) (v : ChannelValue)
  | read (len : Nat)
  | write (buf : List Byte)
  | cycle (input output : List (Option Byte))

/-- What module `j` sees of a call. -/
def COp.view (j : Nat) (p : Place) : COp → Option View
  | .setOutput a v => if a.module = j then some (.set a.channel v) else none
  | .read n k => if n = j then some (.read k) else none
  | .write n b => if n = j then some (.write b) else none
  | .next pi po => some (.cycle (p.inBytes pi) (p.outBytes po))

/-- What module `j` sees of a history. -/
def viewOf (j : Nat) (p : Place) (ops : List COp) : List View := ops.filterMap (COp.view j p)

/-- What an application sees of module `j` in a call: the result of a call with its number; after a
cycle, the module's values in `inputs()` and `outputs()` and its bytes of the returned image. The
bytes shown for a serial module in `outputs()` are left out; they do depend on other serial modules
(C58, C80). -/
inductive ModuleSeen where
  | call (r : Ret)
  | cycle (inputs outputs : Option (List ChannelValue)) (image : Res (List (Option Byte)))

/-- What is seen of module `j` in a history. -/
def moduleSeen (oc : Bool) (j : Nat) (p : Place) (c : Coupler) : List COp → List ModuleSeen
  | [] => []
  | op :: ops =>
    (match op with
      | .next pi po =>
        [.cycle (c.next oc pi po).1.inputs[j]?
          (if p.type = .UR20_1COM_232_485_422 then none else (c.next oc pi po).1.outputs[j]?)
          ((c.next oc pi po).2.map p.outBytes)]
      | _ => if (op.view j p).isSome then [.call (call oc c op).2] else []) ++
      moduleSeen oc j p (op.apply oc c) ops

end Ur20.Spec
