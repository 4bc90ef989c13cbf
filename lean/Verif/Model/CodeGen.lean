import Verif.Model.Interceptor
/-
Model of the code generator `protoc-gen-connectrpc/protoc_gen_connectrpc/__init__.py`, by what the generated classes do: the table of
endpoints of the generated applications, and the methods of the generated clients. Not modelled: the text of the generated module, its
imports and type annotations, the message classes, and the choice between the two protobuf libraries.
-/
namespace Conn
open Py

/-- A method of a protobuf service. -/
structure DescMethod where
  name : Str
  kind : Kind
  idempotency : Idempotency
deriving DecidableEq, Repr

/-- A protobuf service; `typeName` is its name with its package. -/
structure DescService where
  typeName : Str
  methods : List DescMethod
deriving DecidableEq, Repr

/-- `[A-Z]` -/
def isUpperAZ (c : Char) : Bool := 'A' ≤ c && c ≤ 'Z'
/-- `[a-z]` -/
def isLowerAZ (c : Char) : Bool := 'a' ≤ c && c ≤ 'z'

/-- `_RE_UPPER_TO_LOWER.sub(r"\1_\2", text)`, with the expression `([^_])([A-Z][a-z]+)` — `__init__.py:589`, `595`. Matches do not
overlap, and `[a-z]+` takes all the small letters there are: `inside` is true in these letters of a match. -/
def subUpperToLower (inside : Bool) : Str → Str
  | c :: u :: l :: r =>
    if inside && isLowerAZ c then c :: subUpperToLower true (u :: l :: r)
    else if c != '_' && isUpperAZ u && isLowerAZ l then c :: '_' :: u :: subUpperToLower true (l :: r)
    else c :: subUpperToLower false (u :: l :: r)
  | s => s

/-- `_RE_LOWER_TO_UPPER.sub(r"\1_\2", s1)`, with the expression `([a-z])([A-Z])` — `__init__.py:590`, `596`. -/
def subLowerToUpper : Str → Str
  | c :: u :: r =>
    if isLowerAZ c && isUpperAZ u then c :: '_' :: u :: subLowerToUpper r else c :: subLowerToUpper (u :: r)
  | s => s

/-- `_pascal_to_snake_case` — `__init__.py:593-596`. -/
def pascalToSnakeCase (text : Str) : Str := lower (subLowerToUpper (subUpperToLower false text))

/-- `_method_local_name` — `__init__.py:562-563`. `escape` is `escape_identifier` of the protobuf library, which is not modelled. -/
def DescMethod.localName (escape : Str → Str) (m : DescMethod) : Str := escape (pascalToSnakeCase m.name)

/-- `_method_url` — `__init__.py:566-567`. -/
def DescService.methodUrl (svc : DescService) (m : DescMethod) : Str := ['/'] ++ svc.typeName ++ ['/'] ++ m.name

/-- the `MethodInfo(…)` expressions — `__init__.py:192-212`, `267-285`, `353-373`, `419-437`; `_idempotency_level` `570-579`. -/
def DescService.methodInfo (svc : DescService) (m : DescMethod) : MethodInfo := ⟨m.name, svc.typeName, m.idempotency⟩

/-- `_supports_get` — `__init__.py:582-586`. -/
def DescMethod.supportsGet (m : DescMethod) : Bool := m.kind = .unary && m.idempotency = .noSideEffects

section
variable {Req Res : Type}

/-- The functions of the user's service object: the attribute of a name, as a function for RPCs of a kind. -/
abbrev ServiceImpl (Req Res : Type) := Str → (k : Kind) → HandlerFn Req Res k

/-- `Endpoint.unary(method=…, function=…)` etc. — `_endpoint_type`, `__init__.py:538-547`; `_server_shared.py:59-138`. -/
def Endpoint.ofKind (m : MethodInfo) : (k : Kind) → HandlerFn Req Res k → Endpoint Req Res
  | .unary, f => ⟨m, .unary f⟩
  | .clientStream, f => ⟨m, .clientStream f⟩
  | .serverStream, f => ⟨m, .serverStream f⟩
  | .bidi, f => ⟨m, .bidi f⟩

/-- The dictionary of endpoints a generated application makes — `__init__.py:183-215`, `344-378`; `function=svc.…` looks the attribute up. -/
def DescService.endpoints (escape : Str → Str) (svc : DescService) (impl : ServiceImpl Req Res) : Dict Str (Endpoint Req Res) :=
  Dict.ofList (svc.methods.map fun m =>
    (svc.methodUrl m, Endpoint.ofKind (svc.methodInfo m) m.kind (impl (m.localName escape) m.kind)))

/-- The property `path` of generated applications — `__init__.py:222-228`, `385-391`. -/
def DescService.path (svc : DescService) : Str := ['/'] ++ svc.typeName

end

/-! ### generated clients -/

/-- A generated client method: it calls an `execute_…` function (`_client_execute_method`, `__init__.py:550-559`) with this `MethodInfo`; whether
it has the parameter `use_get`. -/
structure Stub where
  kind : Kind
  method : MethodInfo
  offersGet : Bool
deriving DecidableEq, Repr

/-- The attributes of a client object. -/
inductive Attr where
  | execute (k : Kind)
  | send (k : Kind)
  | close
  | special
  | data
  | stub (s : Stub)
deriving DecidableEq, Repr

/-- `execute_unary` etc. -/
def executeName : Kind → Str
  | .unary => pys! "execute_unary"
  | .clientStream => pys! "execute_client_stream"
  | .serverStream => pys! "execute_server_stream"
  | .bidi => pys! "execute_bidi_stream"

/-- `_send_request_unary` etc. -/
def sendName : Kind → Str
  | .unary => pys! "_send_request_unary"
  | .clientStream => pys! "_send_request_client_stream"
  | .serverStream => pys! "_send_request_server_stream"
  | .bidi => pys! "_send_request_bidi_stream"

/-- The attributes of the classes `ConnectClient` — `_client_async.py:81-428` — and `ConnectClientSync` — `_client_sync.py:74-428`; what they
inherit from `object` is left out. -/
def clientClass (fl : Bool) : Dict Str Attr :=
  [(pys! "__init__", .special), (pys! "close", .close),
   (if fl then pys! "__aenter__" else pys! "__enter__", .special), (if fl then pys! "__aexit__" else pys! "__exit__", .special),
   (executeName .unary, .execute .unary), (executeName .clientStream, .execute .clientStream),
   (executeName .serverStream, .execute .serverStream), (executeName .bidi, .execute .bidi),
   (sendName .unary, .send .unary), (sendName .clientStream, .send .clientStream),
   (sendName .serverStream, .send .serverStream), (sendName .bidi, .send .bidi)]

/-- The attributes `__init__` sets on the object, which hide those of the class — `_client_sync.py:111-174`, `_client_async.py:118-175`. -/
def clientInstance : Dict Str Attr :=
  [pys! "_address", pys! "_codec", pys! "_timeout_ms", pys! "_read_max_bytes", pys! "_response_compressions",
   pys! "_accept_compression_header", pys! "_send_compression", pys! "_http_client", pys! "_closed", pys! "_protocol",
   pys! "_execute_unary", pys! "_execute_client_stream", pys! "_execute_server_stream", pys! "_execute_bidi_stream"].map (·, .data)

/-- The methods of a generated client class — `__init__.py:231-292`, `394-443`. -/
def DescService.stubs (escape : Str → Str) (svc : DescService) : List (Str × Stub) :=
  svc.methods.map fun m => (m.localName escape, ⟨m.kind, svc.methodInfo m, m.supportsGet⟩)

/-- The generated client class: a later definition of a name replaces an earlier one, and that of the base class. -/
def DescService.client (escape : Str → Str) (svc : DescService) (async : Bool) : Dict Str Attr :=
  (svc.stubs escape).foldl (fun d p => d.set p.1 (.stub p.2)) (clientClass async)

/-- `client.name` -/
def clientAttr (cls : Dict Str Attr) (name : Str) : Option Attr :=
  match clientInstance.get? name with
  | some a => some a
  | none => cls.get? name

/-- What a call of an attribute of a client does. -/
inductive Invoked where
  /-- the library's function for this kind of RPC runs, with this method -/
  | executed (k : Kind) (m : MethodInfo) (useGet : Bool)
  | typeError
  /-- not a generated method -/
  | other
deriving DecidableEq, Repr

/-- The functions that `execute_…` goes on to call — `_client_sync.py:134-174`, `277-281`, `342-350`: `_send_request_…`, which is looked up
on the object by `__init__`, and `_send_request_bidi_stream`, except for a unary RPC by Connect. -/
def sendsBy (p : Proto) : Kind → List Kind
  | .unary => if p = .connect then [.unary] else [.unary, .bidi]
  | .bidi => [.bidi]
  | k => [k, .bidi]

/-- `client.name(request, headers=…, timeout_ms=…)`, with `use_get=…` if given. A function that has been replaced by a generated method
is called with arguments that method does not have. -/
def invokeStub (cls : Dict Str Attr) (p : Proto) (name : Str) (useGet : Option Bool) : Invoked :=
  match clientAttr cls name with
  | some (.stub s) =>
    if useGet.isSome && !s.offersGet then .typeError
    else match clientAttr cls (executeName s.kind) with
      | some (.execute k) =>
        if (sendsBy p k).all fun j => clientAttr cls (sendName j) = some (.send j) then .executed k s.method (useGet.getD false)
        else .typeError
      | _ => .typeError
  | _ => .other

/-- `async with client:` or `with client:` ends by `self.close()` — `_client_async.py:185-191`, `_client_sync.py:184-190`: whether that is the
library's function. -/
def exitCloses (cls : Dict Str Attr) : Bool := clientAttr cls (pys! "close") = some .close

end Conn
