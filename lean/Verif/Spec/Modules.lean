import Verif.Spec.Channels

/-!
# Specification: single modules

Which registers a module decodes, and the factory parameter words of the module types.
-/

namespace Ur20.Spec

/-- The registers hold a serial frame: at least one register, and the length field in the high byte
of the first register announces no more bytes than the registers have after the two header bytes. -/
def IsFrame (ws : List Word) : Prop :=
  ∃ w : Word, ws[0]? = some w ∧ w.toNat / 256 + 2 ≤ 2 * ws.length

/-- The registers a module type decodes if it has `bytes` bytes of process data: none without data,
a frame for the serial module, otherwise exactly as many registers as the bytes need. -/
def Decodes (t : ModuleType) (bytes : Nat) (ws : List Word) : Prop :=
  if t = .UR20_1COM_232_485_422 then IsFrame ws else ws.length = (bytes + 1) / 2

/-- The parameter registers of a module with factory settings. -/
def factoryWords : ModuleType → List Word
  | .UR20_4DI_P => List.replicate 4 2
  | .UR20_8DI_P_2W => List.replicate 8 2
  | .UR20_4DO_P | .UR20_4DO_P_2A | .UR20_4RO_CO_255 => List.replicate 4 0
  | .UR20_8DO_P => List.replicate 8 0
  | .UR20_4AO_UI_16 => (List.replicate 4 [1, 8, 0]).flatten
  | .UR20_4AO_UI_16_DIAG => (List.replicate 4 [1, 8, 0, 0]).flatten
  | .UR20_4AI_UI_12 | .UR20_4AI_UI_16 => 0 :: (List.replicate 4 [1, 8]).flatten
  | .UR20_4AI_UI_16_DIAG => 0 :: (List.replicate 4 [0, 0, 0, 1, 8]).flatten
  | .UR20_8AI_I_16_DIAG_HD => 0 :: (List.replicate 8 [0, 0, 1, 2]).flatten
  | .UR20_4AI_RTD_DIAG => 0 :: (List.replicate 4 [18, 0, 2, 0, 0, 0, 0]).flatten
  | .UR20_4AI_TC_DIAG => 0 :: (List.replicate 4 [19, 0, 2, 0, 0, 0x7FFF, 0x8000]).flatten
  | .UR20_2FCNT_100 => [0, 0]
  | .UR20_1COM_232_485_422 => [1, 0, 5, 0, 0, 0, 1, 0, 17, 19]
  | _ => []

end Ur20.Spec
