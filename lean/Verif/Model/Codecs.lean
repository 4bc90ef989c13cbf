import Verif.Model.Client
import Verif.Model.Server
import Verif.Model.Codings
/-
Model of `src/connectrpc/_codec.py` and `src/connectrpc/compat/_codec.py`: the codecs for protobuf messages, and the defaults of clients and
servers. The protobuf libraries (`protobuf`, `google.protobuf`) are not modelled: the functions the codecs call are parameters.
-/
namespace Conn
open Py

/-- What the codecs use of a message class — `_codec.py:72`, `75`, `89`, `92`: `to_binary`, `from_binary`, `to_json(registry=...)`,
`from_json(..., registry=...)`; `compat/_codec.py:27`, `30`, `43`, `46-48`: `SerializeToString`, `FromString`, `MessageToJson`, `Parse`
(which take no registry: there `Reg` is `Unit`). `M` are the messages of the class. -/
structure MessageClass (Reg M : Type) where
  toBinary : M → Except Exc Bytes
  fromBinary : Bytes → Except Exc M
  toJson : Reg → M → Except Exc Str
  fromJson : Reg → Bytes → Except Exc M

/-- `_codec.py:26-40` `DEFAULT_REGISTRY`, and which registries are true (`_codec.py:83`, `116`): it is for the library whether one
without types is. -/
structure Registries (Reg : Type) where
  dflt : Reg
  truthy : Reg → Bool

/-- `_codec.py:65-92` `ProtoBinaryCodec`, `ProtoJSONCodec`, and their namesakes in `compat/_codec.py:20-48`: the objects. -/
inductive ProtoCodec (Reg : Type) where
  | binary
  | json (name : Str) (registry : Reg)

/-- `_codec.py:68-69`, `85-86`, `compat/_codec.py:23-24`, `39-40` `name`. -/
def ProtoCodec.name {Reg : Type} : ProtoCodec Reg → Str
  | .binary => pys! "proto"
  | .json name _ => name

/-- `_codec.py:71-72`, `88-89`, `compat/_codec.py:26-27`, `42-43` `encode`; `str.encode()` is UTF-8 (strings of the model have no
surrogates). -/
def ProtoCodec.encode {Reg M : Type} (cls : MessageClass Reg M) (m : M) : ProtoCodec Reg → Except Exc Bytes
  | .binary => cls.toBinary m
  | .json _ registry => match cls.toJson registry m with
    | .ok text => .ok (utf8Encode text)
    | .error e => .error e

/-- `_codec.py:74-75`, `91-92`, `compat/_codec.py:29-30`, `45-48` `decode`. -/
def ProtoCodec.decode {Reg M : Type} (cls : MessageClass Reg M) (data : Bytes) : ProtoCodec Reg → Except Exc M
  | .binary => cls.fromBinary data
  | .json _ registry => cls.fromJson registry data

/-- A codec object at one message class. -/
def ProtoCodec.at {Reg M : Type} (k : ProtoCodec Reg) (cls : MessageClass Reg M) : Codec M where
  name := k.name
  encode m := k.encode cls m
  decode b := k.decode cls b

/-- A codec object at the request and the response class of the methods of a server. -/
def ProtoCodec.onServer {Reg Req Res : Type} (k : ProtoCodec Reg) (req : MessageClass Reg Req) (res : MessageClass Reg Res) :
    ServerCodec Req Res := ⟨k.name, k.at req, k.at res⟩

/-- `_codec.py:81-83` `ProtoJSONCodec(name, registry)`: `registry or DEFAULT_REGISTRY`. -/
def newJsonCodec {Reg : Type} (R : Registries Reg) (name : Str) : Option Reg → ProtoCodec Reg
  | some r => .json name (if R.truthy r then r else R.dflt)
  | none => .json name R.dflt

/-- `_codec.py:95-97` `_default_codecs`, `100-101` `get_default_codecs`; `compat/_codec.py:51-58` `google_protobuf_codecs`. (It is the
same list object every time; the model has no aliasing.) -/
def defaultCodecs {Reg : Type} (R : Registries Reg) : List (ProtoCodec Reg) := [.binary, newJsonCodec R (pys! "json") none]

/-- `_codec.py:104-106` `proto_binary_codec`, `compat/_codec.py:61-63` `google_protobuf_binary_codec`. -/
def protoBinaryCodec {Reg : Type} : ProtoCodec Reg := .binary

/-- `_codec.py:109-118` `proto_json_codec`; `compat/_codec.py:66-68` `google_protobuf_json_codec` (with no registry). -/
def protoJsonCodec {Reg : Type} (R : Registries Reg) : Option Reg → ProtoCodec Reg
  | some r => if R.truthy r then newJsonCodec R (pys! "json") (some r) else newJsonCodec R (pys! "json") none
  | none => newJsonCodec R (pys! "json") none

/-- `_client_sync.py:112`, `_client_async.py:119` `codec or proto_binary_codec()`; the codec objects here are true. -/
def clientCodec {Reg : Type} : Option (ProtoCodec Reg) → ProtoCodec Reg
  | some k => k
  | none => protoBinaryCodec

/-- `_server_sync.py:189`, `_server_async.py:117` `codecs if codecs is not None else get_default_codecs()`. -/
def serverCodecs {Reg : Type} (R : Registries Reg) : Option (List (ProtoCodec Reg)) → List (ProtoCodec Reg)
  | some ks => ks
  | none => defaultCodecs R

/-- `_client_sync.py:82-123`, `_client_async.py:88-130` `__init__` with the arguments `address`, `codec`, `protocol`, `timeout_ms` and `read_max_bytes`; the
others are left out, so that `accept_compression` is `None` and `send_compression` is the gzip compression. -/
def protoClient {Reg Req Res : Type} (req : MessageClass Reg Req) (res : MessageClass Reg Res) (gzip : Format) (fl : Flavor) (address : Str)
    (codec : Option (ProtoCodec Reg)) (proto : Proto) (timeoutMs readMax : Option Int) (userAgent : Str) : Client Req Res :=
  .new fl address ((clientCodec codec).at req) ((clientCodec codec).at res) proto (gzipCompression gzip) none (some (gzipCompression gzip))
    timeoutMs readMax userAgent

/-- `_server_sync.py:153-190`, `_server_async.py:86-118` `__init__` with the endpoints, `read_max_bytes` and `codecs`; `compressions` is left out. -/
def protoApp {Reg Req Res : Type} (R : Registries Reg) (req : MessageClass Reg Req) (res : MessageClass Reg Res) (gzip : Format)
    (endpoints : Dict Str (Endpoint Req Res)) (path : Str) (readMax : Option Int) (codecs : Option (List (ProtoCodec Reg))) : App Req Res :=
  .new endpoints path (gzipCompression gzip) readMax none ((serverCodecs R codecs).map (·.onServer req res))

end Conn
