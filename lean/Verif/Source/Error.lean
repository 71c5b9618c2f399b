import Verif.Source.Prelude

/-!
# `src/error.rs`, translated

Generated by `tools/rust2lean.py` from the source. Do not edit.
-/

set_option linter.unusedVariables false

namespace Ur20.Src.error

/-- `Error` has no other variants, `src/error.rs:5-17`. -/
theorem Error.variants (x : Error) :
    x = Error.unknownModule ∨ x = Error.unknownCategory ∨ x = Error.bufferLength ∨ x = Error.sequenceNumber ∨ x = Error.dataLength ∨ x = Error.registerCount ∨ x = Error.channelParameter ∨ x = Error.channelValue ∨ x = Error.moduleOffset ∨ x = Error.address ∨ (∃ a : String, x = Error.io a) := by
  cases x <;> simp

/-- `fmt`, `src/error.rs:21-35`. -/
def Error.fmt (oc : Bool) (self : Error) :
    Res String := do
  (match self with
  | Error.unknownModule =>
    (pure "unknown module type")
  | Error.unknownCategory =>
    (pure "unknown module category")
  | Error.bufferLength =>
    (pure "invalid buffer length")
  | Error.sequenceNumber =>
    (pure "invalid sequence number")
  | Error.dataLength =>
    (pure "invalid data length")
  | Error.registerCount =>
    (pure "invalid number of registers")
  | Error.channelParameter =>
    (pure "invalid channel paramater(s)")
  | Error.channelValue =>
    (pure "invalid channel value(s)")
  | Error.moduleOffset =>
    (pure "invalid module offset")
  | Error.address =>
    (pure "invalid module address")
  | Error.io err =>
    (pure ("I/O error: " ++ err)))

/-- `description`, `src/error.rs:40-54`. -/
def Error.description (oc : Bool) (self : Error) :
    Res String := do
  (match self with
  | Error.unknownModule =>
    (pure "unknown module type")
  | Error.unknownCategory =>
    (pure "unknown module category")
  | Error.bufferLength =>
    (pure "invalid buffer length")
  | Error.sequenceNumber =>
    (pure "invalid sequence number")
  | Error.dataLength =>
    (pure "invalid data length")
  | Error.registerCount =>
    (pure "invalid number of registers")
  | Error.channelParameter =>
    (pure "invalid channel paramater(s)")
  | Error.channelValue =>
    (pure "invalid channel value(s)")
  | Error.moduleOffset =>
    (pure "invalid module offset")
  | Error.address =>
    (pure "invalid module address")
  | Error.io err =>
    (pure err))

end Ur20.Src.error
