import Verif.Spec.Loop
import Verif.Spec.HighByte

/-!
# Specification: packing the process data of modules

A way to place the process data of a list of modules in an image, one module after the other. A module
of two or more bytes starts at the next free register. A module of one byte takes the high byte of the
register before if just a module of one byte has taken its low byte, and else the low byte of the next
register.
-/

namespace Ur20.Spec

/-- What is taken: a number of registers, and whether the high byte of the last one is free. -/
structure Taken where
  registers : Nat
  highFree : Bool
  deriving DecidableEq, Repr

/-- Nothing is taken. -/
def Taken.nothing : Taken := ⟨0, false⟩

/-- Takes a number of bytes: the bit they start at, and what is taken then. -/
def Taken.take (s : Taken) (bytes : Nat) : Option Nat × Taken :=
  if bytes = 0 then (none, s)
  else if bytes = 1 ∧ s.highFree then (some (16 * (s.registers - 1) + 8), ⟨s.registers, false⟩)
  else (some (16 * s.registers), ⟨s.registers + (bytes + 1) / 2, decide (bytes = 1)⟩)

/-- The bits at which modules of these sizes start. -/
def positions (s : Taken) : List Nat → List (Option Nat)
  | [] => []
  | b :: bs => (s.take b).1 :: positions (s.take b).2 bs

/-- The offset word of a position in the area that starts at bit `base`. -/
def offsetWord (base : Nat) : Option Nat → Word
  | none => noOffset
  | some p => BitVec.ofNat 16 (base + p)

/-- The configuration of a coupler with these module types and parameter words, whose inputs and
outputs are packed. -/
def packed (l : List (ModuleType × List Word)) : CouplerConfig where
  modules := l.map (·.1)
  params := l.map (·.2)
  offsets := (List.zipWith (fun o i => [offsetWord outputBase o, offsetWord 0 i])
    (positions .nothing (l.map fun p => outputBytes p.1 p.2))
    (positions .nothing (l.map fun p => inputBytes p.1 p.2))).flatten

/-- No two modules of a configuration share a byte of the input image. -/
def DisjointInputs (cfg : CouplerConfig) : Prop :=
  ∀ j k t par o i t' par' o' i' p, ConfiguredAt cfg j t par o i → ConfiguredAt cfg k t' par' o' i' →
    i ≠ noOffset → i' ≠ noOffset →
    i.toNat / 8 ≤ p → p < i.toNat / 8 + inputBytes t par →
    i'.toNat / 8 ≤ p → p < i'.toNat / 8 + inputBytes t' par' → j = k

end Ur20.Spec
