import Verif.Model.Coupler

/-!
# Specification: process images

A process image is a list of registers. Bits and bytes are numbered from the start of the image,
the least significant bit and the low byte of a register first. A module offset is a bit number;
the output area starts at bit `0x8000`.
-/

namespace Ur20.Spec

/-- Bit `k` of an image. -/
def bitAt (img : List Word) (k : Nat) : Option Bool := img[k / 16]?.map fun w => w.getLsbD (k % 16)

/-- Byte `p` of an image. -/
def byteAt (img : List Word) (p : Nat) : Option Byte :=
  img[p / 2]?.map fun w => w.extractLsb' (8 * (p % 2)) 8

/-- First bit of the output area. -/
def outputBase : Nat := 0x8000

/-- Position in the output image, in bytes, of a module with output offset `o`. -/
def outByte (o : Word) : Nat := (o.toNat - outputBase) / 8

/-- Position in the output image, in bits, of a module with output offset `o`. -/
def outBit (o : Word) : Nat := o.toNat - outputBase

/-- Registers a module adds to the output image: its bytes, rounded up to whole registers, if it
starts at a register; none if it has no output offset or lies in the high byte of the register
before it. -/
def registersAdded (e : Module × ModuleOffset) : Nat :=
  match e.2.output with
  | some o => if o.toNat % 16 = 0 then (e.1.outputByteCount + 1) / 2 else 0
  | none => 0

/-- Registers of the output image taken by the first `i` modules. -/
def registersBefore (infos : List (Module × ModuleOffset)) (i : Nat) : Nat :=
  ((infos.take i).map registersAdded).sum

/-- The offset `o` is where `n` registers end (at bit 0 of the next register), or in the high byte
of the last one of them. -/
def InPlace (o : Word) (n : Nat) : Prop :=
  outputBase ≤ o.toNat ∧
    (o.toNat = outputBase + 16 * n ∨ (0 < n ∧ o.toNat = outputBase + 16 * (n - 1) + 8))

/-- No module after module `i` lies in the high byte `p` of a register. -/
def NotOverlaid (infos : List (Module × ModuleOffset)) (i p : Nat) : Prop :=
  ∀ j m off o, i < j → infos[j]? = some (m, off) → off.output = some o →
    ¬ (o.toNat % 16 = 8 ∧ outByte o = p)

/-- Byte `p` of the output image belongs to a module with this offset. -/
def Owns (e : Module × ModuleOffset) (p : Nat) : Prop :=
  ∃ o, e.2.output = some o ∧ outByte o ≤ p ∧ p < outByte o + e.1.outputByteCount

/-- No later module uses a byte of the output image that belongs to module `i`, so that none
overwrites it. -/
def BytesKept (infos : List (Module × ModuleOffset)) (i : Nat) : Prop :=
  ∀ (j : Nat) (e e' : Module × ModuleOffset) (p : Nat), i < j → infos[i]? = some e →
    infos[j]? = some e' → Owns e p → ¬ Owns e' p

/-- No two modules share a byte of the output image. -/
def DisjointBytes (infos : List (Module × ModuleOffset)) : Prop := ∀ i : Nat, BytesKept infos i

theorem disjointBytes_of {infos : List (Module × ModuleOffset)}
    (h : ∀ (i j : Nat) (e e' : Module × ModuleOffset) (p : Nat), infos[i]? = some e →
      infos[j]? = some e' → Owns e p → Owns e' p → i = j) : DisjointBytes infos :=
  fun i j e e' p hij hi hj h1 h2 => by have := h i j e e' p hi hj h1 h2; omega

end Ur20.Spec
