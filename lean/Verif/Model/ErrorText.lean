import Verif.Model.Outcome

/-!
# Texts of errors
-/

namespace Ur20

/-- `impl Display for Error`, `src/error.rs:20-36`. -/
def Error.display : Error → String
  | .unknownModule => "unknown module type"
  | .unknownCategory => "unknown module category"
  | .bufferLength => "invalid buffer length"
  | .sequenceNumber => "invalid sequence number"
  | .dataLength => "invalid data length"
  | .registerCount => "invalid number of registers"
  | .channelParameter => "invalid channel paramater(s)"
  | .channelValue => "invalid channel value(s)"
  | .moduleOffset => "invalid module offset"
  | .address => "invalid module address"
  | .io err => "I/O error: " ++ err

/-- `Error::description`, `src/error.rs:39-55`. -/
def Error.description : Error → String
  | .unknownModule => "unknown module type"
  | .unknownCategory => "unknown module category"
  | .bufferLength => "invalid buffer length"
  | .sequenceNumber => "invalid sequence number"
  | .dataLength => "invalid data length"
  | .registerCount => "invalid number of registers"
  | .channelParameter => "invalid channel paramater(s)"
  | .channelValue => "invalid channel value(s)"
  | .moduleOffset => "invalid module offset"
  | .address => "invalid module address"
  | .io err => err

/-- `From<io::Error>`, `src/error.rs:57-61`. Simplification: an `io::Error` is the text it displays
as. -/
def Error.fromIo (shown : String) : Error := .io shown

end Ur20
