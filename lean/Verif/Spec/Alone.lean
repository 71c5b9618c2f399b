import Verif.Spec.Noninterference

/-!
# Specification: a module alone on a coupler
-/

namespace Ur20.Spec

/-- The register with the given low and high byte; a byte that is missing counts as zero. -/
def registerOf (lo hi : Option Byte) : Word := hi.getD 0#8 ++ lo.getD 0#8

/-- The registers of an image with just the `n` bytes from byte `pos` of another image on. -/
def cutOut (img : List Word) (pos n : Nat) : List Word :=
  (List.range ((n + 1) / 2)).map fun k =>
    registerOf (byteAt img (pos + 2 * k))
      (if 2 * k + 1 < n then byteAt img (pos + (2 * k + 1)) else none)

/-- The offset words of a module alone on a coupler: data starts where the input and the output area
start. -/
def Place.alone (p : Place) : Place :=
  { p with
    output := if p.output = noOffset then noOffset else 0x8000#16
    input := if p.input = noOffset then noOffset else 0x0000#16 }

/-- The configuration of a coupler with just this module. -/
def Place.config (p : Place) : CouplerConfig :=
  { modules := [p.type], offsets := [p.output, p.input], params := [p.par] }

/-- A call as a coupler with just this module gets it: calls with the number of the module go to
module 0, the images have just the bytes of the module, other calls are left out. -/
def COp.alone (j : Nat) (p : Place) : COp → Option COp
  | .setOutput a v => if a.module = j then some (.setOutput ⟨0, a.channel⟩ v) else none
  | .read n k => if n = j then some (.read 0 k) else none
  | .write n b => if n = j then some (.write 0 b) else none
  | .next pi po => some (.next
      (if p.input = noOffset then [] else cutOut pi (p.input.toNat / 8) (inputBytes p.type p.par))
      (if p.output = noOffset then [] else
        cutOut po (outByte p.output) (outputBytes p.type p.par)))

end Ur20.Spec
