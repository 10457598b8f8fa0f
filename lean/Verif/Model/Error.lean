import Verif.Basic

/-!
# Model of the errors with their texts

The rest of the model keeps the kind of an error only (`BgpError`, `src/error.rs:18-25`).
-/

namespace Zbgp

/-- `src/error.rs:17-25` with the texts. Of a wrapped error (`Other`) the model keeps what its `Display` writes. -/
inductive BgpErrorMsg
  | Static (s : List Char)
  | InsufficientBufferSize
  | ProtocolError
  | TooManyData
  | DynStr (s : List Char)
  | Other (display : List Char)
deriving DecidableEq, Repr

namespace BgpErrorMsg

/-- The kind that the rest of the model keeps. -/
def kind : BgpErrorMsg → BgpError
  | .Static _ => .static
  | .InsufficientBufferSize => .insufficientBufferSize
  | .ProtocolError => .protocolError
  | .TooManyData => .tooManyData
  | .DynStr _ => .dynStr
  | .Other _ => .other

/-- `src/error.rs:30-32` `static_str`. -/
def staticStr (ms : List Char) : BgpErrorMsg := .Static ms
/-- `src/error.rs:35-37` `from_string`. -/
def fromString (s : List Char) : BgpErrorMsg := .DynStr s
/-- `src/error.rs:40-42` `from_error`; the `From` conversions, `src/error.rs:73-92`, do the same. -/
def fromError (e : List Char) : BgpErrorMsg := .Other e
/-- `src/error.rs:45-47` `insufficient_buffer_size`. -/
def insufficientBufferSize : BgpErrorMsg := .InsufficientBufferSize
/-- `src/error.rs:50-52` `protocol_error`. -/
def protocolError : BgpErrorMsg := .ProtocolError
/-- `src/error.rs:55-57` `too_many_data`. -/
def tooManyData : BgpErrorMsg := .TooManyData

/-- `src/error.rs:59-70` `Display`. -/
def display : BgpErrorMsg → List Char
  | .InsufficientBufferSize => "BgpError InsufficientBufferSize".toList
  | .ProtocolError => "BgpError ProtocolError".toList
  | .TooManyData => "BgpError TooManyData".toList
  | .Static s => "BgpError ".toList ++ s
  | .DynStr s => "BgpError ".toList ++ s
  | .Other e => "BgpError ".toList ++ e

end BgpErrorMsg

end Zbgp
