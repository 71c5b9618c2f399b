import Verif.Spec.Settings
import Verif.Model.Coupler

/-!
# Specification: setting up a coupler from the registers of a station

An application reads the module list, the offsets and the parameters of every module from the
register addresses the crate names, and passes what it got to `Coupler::new`.
-/

namespace Ur20.Spec

/-- What a Modbus read of `count` registers from `addr` on returns. -/
def readRegisters (mem : Nat → Word) (addr count : Nat) : List Word :=
  (List.range count).map fun k => mem (addr + k)

/-- The set-up of a station with `n` modules, as an application writes it: every argument comes
from a register read at an address that the crate supplies. -/
def setup (oc : Bool) (mem : Nat → Word) (n : Nat) : Res Coupler := do
  let types ← moduleListFromRegisters (readRegisters mem addrCurrentModuleList.toNat (2 * n))
  let windows ← paramAddressesAndRegisterCounts oc types
  Coupler.new
    { modules := types
      offsets := readRegisters mem addrModuleOffsets.toNat (2 * n)
      params := windows.map fun w => readRegisters mem w.1.toNat w.2 }

/-- A module as the station knows it: its type, its settings and the bit addresses of its data. -/
structure Slot where
  type : ModuleType
  settings : Module
  output : Word
  input : Word

/-- The type of module `k`, according to the 32 bit id in registers `0x2A00 + 2 * k` (high word)
and `0x2A00 + 2 * k + 1`. -/
def typeAt (mem : Nat → Word) (k : Nat) : Res ModuleType :=
  ModuleType.tryFromU32 (BitVec.ofNat 32
    ((mem (0x2A00 + 2 * k)).toNat * 65536 + (mem (0x2A00 + 2 * k + 1)).toNat))

/-- The settings of module `k` are in the registers from `0xC000 + 256 * k` on. -/
def SettingsAt (mem : Nat → Word) (k : Nat) (t : ModuleType) (m : Module) : Prop :=
  SettingsOf t m ∧ Describes (readRegisters mem (0xC000 + 256 * k) (registers m).length) m

/-- The registers of the station describe the modules `slots`, in order. -/
def Station (mem : Nat → Word) (slots : List Slot) : Prop :=
  ∀ (k : Nat) (s : Slot), slots[k]? = some s →
    typeAt mem k = .ok s.type ∧ mem (0x2B00 + 2 * k) = s.output ∧
    mem (0x2B00 + 2 * k + 1) = s.input ∧ SettingsAt mem k s.type s.settings

/-- A bit address of the station; `0xFFFF` stands for no data. -/
def bitAddress (w : Word) : Option Word := if w = 0xFFFF#16 then none else some w

end Ur20.Spec
