import Verif.Model.CodeGen
/-
Model of the modules that `protoc-gen-connectrpc/protoc_gen_connectrpc/__init__.py` generates: the classes they define, and the names under which they refer
to message classes. The text of a module is not modelled, nor are the names it imports (the protobuf library's `File` and `Ident.for_desc` choose them).
-/
namespace Conn
open Py

/-- the option `io` — `__init__.py:73-80`, `88`; `both` is `None`. -/
inductive IOOption where
  | both
  | sync
  | async
deriving DecidableEq, Repr

/-- `not options.io or options.io == _IOOption.ASYNC` and the same with `SYNC` — `__init__.py:108`, `110`. -/
def IOOption.includes : IOOption → Bool → Bool
  | .both, _ => true
  | .async, a => a
  | .sync, a => !a

/-- the three kinds of classes that are generated for a service -/
inductive Role where
  | service
  | application
  | client
deriving DecidableEq, Repr

/-- A generated class: what it is for. What it does is `DescService.endpoints`, `DescService.client`. -/
structure GenClass where
  svc : DescService
  role : Role
  async : Bool
deriving DecidableEq, Repr

/-- A service in its file: its name without the package. -/
structure FileService where
  name : Str
  desc : DescService
deriving DecidableEq, Repr

/-- `class …(` — `__init__.py:119`, `147-150`, `231`, `299`, `326-329`, `394`. -/
def classEnding : Role → Bool → Str
  | .service, true => []
  | .application, true => pys! "ASGIApplication"
  | .client, true => pys! "Client"
  | .service, false => pys! "Sync"
  | .application, false => pys! "WSGIApplication"
  | .client, false => pys! "ClientSync"

/-- the class statements of `_generate_async_stubs` — `__init__.py:114-291` — and `_generate_sync_stubs` — `294-442`, in their order. -/
def FileService.stubClasses (escape : Str → Str) (s : FileService) (async : Bool) : List (Str × GenClass) :=
  [.service, .application, .client].map fun r => (escape s.name ++ classEnding r async, ⟨s.desc, r, async⟩)

/-- the class statements of `_generate_file` — `__init__.py:107-111`. -/
def classStatements (escape : Str → Str) (io : IOOption) (services : List FileService) : List (Str × GenClass) :=
  services.flatMap fun s =>
    (if io.includes true then s.stubClasses escape true else []) ++ (if io.includes false then s.stubClasses escape false else [])

/-- `_generate` — `__init__.py:92-96` — and the execution of the module it generates: a later class statement replaces an earlier one of the same name.
`none` if no module is generated. -/
def generateModule (escape : Str → Str) (io : IOOption) (services : List FileService) : Option (Dict Str GenClass) :=
  if services.isEmpty then none else some (Dict.ofList (classStatements escape io services))

/-! ### message classes of google.protobuf -/

/-- `filename.removesuffix(".proto")` -/
def removeProto (s : Str) : Str := if (pys! ".proto").isSuffixOf s then s.take (s.length - 6) else s

/-- `_module_name` — `__init__.py:513-517`. -/
def moduleName (filename : Str) : Str :=
  let filename := removeProto filename
  let filename := filename.map fun c => if c = '-' then '_' else c
  let filename := filename.map fun c => if c = '/' then '.' else c
  filename ++ pys! "_pb2"

/-- A message: its file, its name, and the names of the messages it is nested in, innermost first. -/
structure DescMessage where
  file : Str
  name : Str
  parents : List Str
deriving DecidableEq, Repr

/-- An identifier in a module — `protobuf.plugin.Ident`. -/
structure ModIdent where
  module : Str
  name : Str
deriving DecidableEq, Repr

/-- the loop over `message.parent` — `__init__.py:499-503`. -/
def messageParts (parts : List Str) : List Str → List Str
  | [] => parts
  | p :: r => messageParts (parts ++ [p]) r

/-- `_message_ident` with `protobuf=google` — `__init__.py:499-509`; `methodFile` is the name of the file of the service. Files are compared by
their names. -/
def messageIdent (methodFile : Str) (message : DescMessage) : ModIdent :=
  let parts := messageParts [message.name] message.parents
  let name := join ['.'] parts.reverse
  if message.file ≠ methodFile then ⟨moduleName message.file, name⟩
  else ⟨['.'] ++ moduleName ((split '/' message.file).getLastD []), name⟩

end Conn
