import Verif.Py.Str
import Verif.Py.Dict
import Verif.Py.Int
import Verif.Py.Json
/-
Basic vocabulary: error codes, exceptions, codecs, compressions.
-/
namespace Conn
open Py

deriving instance DecidableEq for Except

/-- `code.py:9-62` — the 16 members of `Code`. -/
inductive Code where
  | canceled | unknown | invalidArgument | deadlineExceeded | notFound | alreadyExists | permissionDenied
  | resourceExhausted | failedPrecondition | aborted | outOfRange | unimplemented | internal | unavailable
  | dataLoss | unauthenticated
deriving DecidableEq, Repr, Inhabited

/-- All members in definition order (`list(Code)`). -/
def Code.all : List Code :=
  [.canceled, .unknown, .invalidArgument, .deadlineExceeded, .notFound, .alreadyExists, .permissionDenied,
   .resourceExhausted, .failedPrecondition, .aborted, .outOfRange, .unimplemented, .internal, .unavailable,
   .dataLoss, .unauthenticated]

/-- `code.py:9-62` — `Code.value`. -/
def Code.value : Code → Str
  | .canceled => pys! "canceled"
  | .unknown => pys! "unknown"
  | .invalidArgument => pys! "invalid_argument"
  | .deadlineExceeded => pys! "deadline_exceeded"
  | .notFound => pys! "not_found"
  | .alreadyExists => pys! "already_exists"
  | .permissionDenied => pys! "permission_denied"
  | .resourceExhausted => pys! "resource_exhausted"
  | .failedPrecondition => pys! "failed_precondition"
  | .aborted => pys! "aborted"
  | .outOfRange => pys! "out_of_range"
  | .unimplemented => pys! "unimplemented"
  | .internal => pys! "internal"
  | .unavailable => pys! "unavailable"
  | .dataLoss => pys! "data_loss"
  | .unauthenticated => pys! "unauthenticated"

/-- `Code(value)` — enum lookup by value (`none` = `ValueError`). -/
def Code.ofValue (s : Str) : Option Code := Code.all.find? fun c => c.value == s

/-- `errors.py:21-74` — an error detail is a `google.protobuf.Any` (type URL and bytes) and, when it was made from a
message, that message.  The message is only used to print debug information (`_protocol.py:174-180`), so it is
represented by the result of `message_to_json_value`; `none` stands for no message or a failing conversion. -/
structure ErrorDetail where
  typeUrl : Str
  value : Bytes
  debug : Option Json := none
deriving DecidableEq, Repr, Inhabited

/-- `errors.py:77-117` — the content of a `ConnectError`. -/
structure ConnectErr where
  code : Code
  message : Str
  details : List ErrorDetail := []
deriving DecidableEq, Repr, Inhabited

/-- `pyqwest.StreamErrorCode`: the HTTP/2 error codes of RFC 9113 §7 (pyqwest is not part of the code). -/
inductive ResetCode where
  | noError | protocolError | internalError | flowControlError | settingsTimeout | streamClosed | frameSizeError
  | refusedStream | cancel | compressionError | connectError | enhanceYourCalm | inadequateSecurity | http11Required
deriving DecidableEq, Repr, Inhabited

/-- Classes of the other Python exceptions that occur in the modelled code. `custom` stands for any other
subclass of `Exception` (user code, codecs, transports). -/
inductive Cls where
  | valueError | keyError | typeError | attributeError | runtimeError | notImplemented | structError
  | unicodeError | assertionError | timeoutError
  /-- `pyqwest.StreamError` with its code -/
  | streamError (code : ResetCode)
  | custom (n : Nat)
deriving DecidableEq, Repr, Inhabited

/-- Python exceptions as values. -/
inductive Exc where
  /-- `ConnectError` (`errors.py`) -/
  | connect (e : ConnectErr)
  /-- `HTTPException` (`_protocol.py:276-281`) -/
  | http (status : Nat) (headers : List (Str × Str))
  /-- any other subclass of `Exception`, with `str(exc)` -/
  | other (cls : Cls) (msg : Str)
  /-- `asyncio.CancelledError` (a `BaseException`, not an `Exception`) -/
  | cancelled
deriving DecidableEq, Repr, Inhabited

/-- `isinstance(exc, Exception)`. -/
def Exc.isException : Exc → Bool
  | .cancelled => false
  | _ => true

/-- `str(exc)`. -/
def Exc.str : Exc → Str
  | .connect e => e.message
  | .http _ _ => []
  | .other _ m => m
  | .cancelled => []

/-- `raise ConnectError(code, msg)`. -/
def Exc.mk (c : Code) (m : Str) : Exc := .connect { code := c, message := m }

/-- `_codec.py` `Codec` for one message class: `encode`/`decode` may raise. -/
structure Codec (M : Type) where
  name : Str
  encode : M → Except Exc Bytes
  decode : Bytes → Except Exc M

/-- `decode ∘ encode` is the identity. -/
def Codec.Lawful {M : Type} (c : Codec M) : Prop :=
  ∀ m b, c.encode m = .ok b → c.decode b = .ok m

/-- `compression/__init__.py` `Compression`; `_compression.py:13-23` `IdentityCompression` is singled out because
the code tests for it with `isinstance`. -/
inductive Compression where
  | identity
  | custom (name : Str) (compress : Bytes → Bytes) (decompress : Bytes → Except Exc Bytes)

namespace Compression
/-- `name()` -/
def name : Compression → Str
  | identity => pys! "identity"
  | custom n _ _ => n
/-- `compress(data)` -/
def compress : Compression → Bytes → Bytes
  | identity, b => b
  | custom _ c _, b => c b
/-- `decompress(data)` -/
def decompress : Compression → Bytes → Except Exc Bytes
  | identity, b => .ok b
  | custom _ _ d, b => d b
/-- `isinstance(c, IdentityCompression)` -/
def isIdentity : Compression → Bool
  | identity => true
  | custom .. => false
def Lawful (c : Compression) : Prop := ∀ b, c.decompress (c.compress b) = .ok b
end Compression

end Conn
