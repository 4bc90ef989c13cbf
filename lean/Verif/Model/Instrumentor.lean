import Verif.Model.Otel
/-
Model of `ConnectInstrumentor` — `connectrpc-otel/connectrpc_otel/_instrumentor.py:25-103`: auto-instrumentation is switched on and off, and the modules of
the library are imported, in any order. The constructor wrapper itself is `initWrapper` in `Model/Otel.lean`.
Of other packages: `BaseInstrumentor` (one object per process, `instrument` and `uninstrument` do nothing when there is nothing to do),
`register_post_import_hook` (runs the hook at once if the module has been imported, otherwise once, after the import; hooks cannot be taken back),
`wrap_function_wrapper` (puts a wrapper around an attribute) and `unwrap` (removes the outermost wrapper, if there is one). Not modelled: modules that are
removed from `sys.modules` or reloaded, and threads.
-/
namespace Conn

/-- The modules that are patched — `_instrumentor.py:37-38`. -/
inductive LibModule where
  | client
  | server
deriving DecidableEq, Repr

/-- The classes whose constructors are wrapped — `_instrumentor.py:44-48`, `52-69`. -/
inductive LibClass where
  | client
  | clientSync
  | asgi
  | wsgi
deriving DecidableEq, Repr

/-- The module a class is patched in — `_instrumentor.py:52-69`. -/
def LibClass.module : LibClass → LibModule
  | .client | .clientSync => .client
  | .asgi | .wsgi => .server

/-- `_patch_client` and `_patch_server`, as hooks. -/
inductive PatchHook where
  | client
  | server
deriving DecidableEq, Repr

/-- The state of the process: `_is_instrumented_by_opentelemetry`, the providers stored in the instrumentor, the modules in `sys.modules`, the hooks that
wait for an import, in order of registration, and the wrappers around each constructor, the outermost first; a wrapper is the `client` argument
of its `partial`. -/
structure Instrumentation (P : Type) where
  on : Bool
  providers : Option P
  imported : LibModule → Bool
  hooks : LibModule → List PatchHook
  wrappers : LibClass → List Bool

/-- Before anything has happened. -/
def Instrumentation.start {P : Type} : Instrumentation P := ⟨false, none, fun _ => false, fun _ => [], fun _ => []⟩

/-- What happens: `instrument(tracer_provider=…, meter_provider=…)` (`compatible`: there is no dependency conflict, or it is not looked for),
`uninstrument()`, the import of a module. -/
inductive InstrEvent (P : Type) where
  | instrument (compatible : Bool) (p : P)
  | uninstrument
  | load (m : LibModule)
deriving DecidableEq

section
variable {P : Type}

/-- `wrap_function_wrapper(module, "….__init__", partial(self._init_wrapper, client=client))` -/
def Instrumentation.wrap (s : Instrumentation P) (c : LibClass) (client : Bool) : Instrumentation P :=
  { s with wrappers := fun c' => if c' = c then client :: s.wrappers c' else s.wrappers c' }

/-- `unwrap("….__init__")` -/
def Instrumentation.unwrap (s : Instrumentation P) (c : LibClass) : Instrumentation P :=
  { s with wrappers := fun c' => if c' = c then (s.wrappers c').tail else s.wrappers c' }

/-- `_patch_client`, `_patch_server` — `_instrumentor.py:50-70`. -/
def Instrumentation.patch (s : Instrumentation P) : PatchHook → Instrumentation P
  | .client => (s.wrap .client true).wrap .clientSync true
  | .server => (s.wrap .asgi false).wrap .wsgi false

/-- `register_post_import_hook(hook, name)` -/
def Instrumentation.register (s : Instrumentation P) (hook : PatchHook) (m : LibModule) : Instrumentation P :=
  if s.imported m then s.patch hook
  else { s with hooks := fun m' => if m' = m then s.hooks m' ++ [hook] else s.hooks m' }

/-- `_instrument` — `_instrumentor.py:29-38`. -/
def Instrumentation.instrument (s : Instrumentation P) (p : P) : Instrumentation P :=
  (({ s with providers := some p } : Instrumentation P).register .client .client).register .server .server

/-- `_uninstrument` — `_instrumentor.py:40-48`. -/
def Instrumentation.uninstrument (s : Instrumentation P) : Instrumentation P :=
  let s := if s.imported .client then (s.unwrap .client).unwrap .clientSync else s
  if s.imported .server then (s.unwrap .asgi).unwrap .wsgi else s

/-- One event. `BaseInstrumentor.instrument` and `uninstrument` only log a warning when the instrumentation is on, or off, already; `instrument` only logs an
error when there is a conflict. The hooks run after the first import of a module. -/
def Instrumentation.step (s : Instrumentation P) : InstrEvent P → Instrumentation P
  | .instrument compatible p => if s.on then s else if compatible then { s.instrument p with on := true } else s
  | .uninstrument => if s.on then { s.uninstrument with on := false } else s
  | .load m =>
    if s.imported m then s
    else (s.hooks m).foldl Instrumentation.patch
      { s with imported := fun m' => m' = m || s.imported m', hooks := fun m' => if m' = m then [] else s.hooks m' }

/-- A history. -/
def Instrumentation.after (history : List (InstrEvent P)) : Instrumentation P := history.foldl Instrumentation.step .start

/-- The interceptors the constructor of a class sees when it is called with the argument `arg`: the wrappers run from the outermost to the innermost, each
with the providers that are stored in the instrumentor now (`_instrumentor.py:72-103`). -/
def Instrumentation.construct {I : Type} (isOtel : I → Bool) (tracing : P → Bool → I) (s : Instrumentation P) (c : LibClass) (arg : Option (Iterable I)) :
    List I :=
  match s.providers with
  | none => interceptorsSeen arg
  | some p => interceptorsSeen ((s.wrappers c).foldl (fun a client => initWrapper isOtel (tracing p client) a) arg)

end

end Conn
