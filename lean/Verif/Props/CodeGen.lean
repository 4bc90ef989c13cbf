import Verif.Proofs.CodeGen
import Verif.Props.StreamEndToEnd
/-
C54: generated clients and servers.
-/
namespace Props
open Conn Py Spec

/-- **C54, names.** The Python name of a method is its name in lower case with an underscore at the start of each word but the first, escaped if
need be. -/
theorem C54_snake_case (escape : List Char → List Char) (m : DescMethod) : m.localName escape = escape (lower (underscored m.name)) := by
  unfold DescMethod.localName pascalToSnakeCase
  rw [subs_underscored]

/-- **C54, names.** It differs from the name of the method by case and underscores only. -/
theorem C54_letters (escape : List Char → List Char) (he : Escapes escape) (m : DescMethod) :
    (m.localName escape).filter (· ≠ '_') = (lower m.name).filter (· ≠ '_') := by
  rw [C54_snake_case]
  have h : (lower (underscored m.name)).filter (· ≠ '_') = (lower m.name).filter (· ≠ '_') := by
    rw [filter_lower, underscored_letters, ← filter_lower]
  rcases he (lower (underscored m.name)) with e | e <;> rw [e]
  · exact h
  · rw [List.filter_append, h]
    exact List.append_nil _

/-- **C54, servers.** A generated application has one endpoint for each method, at the path of the method; it runs the attribute of the user's service
that has the Python name of the method, as a function of the kind of the method. -/
theorem C54_server {Req Res : Type} (escape : List Char → List Char) (svc : DescService) (hw : WellFormed svc) (impl : ServiceImpl Req Res) :
    (∀ m ∈ svc.methods, ∃ h, RunsAttribute impl (m.localName escape) m.kind h ∧
      Dict.get? (svc.endpoints escape impl) (pys! "/" ++ svc.typeName ++ pys! "/" ++ m.name) =
        some ⟨⟨m.name, svc.typeName, m.idempotency⟩, h⟩) ∧
    (∀ path, (∀ m ∈ svc.methods, path ≠ pys! "/" ++ svc.typeName ++ pys! "/" ++ m.name) →
      Dict.get? (svc.endpoints escape impl) path = none) := by
  constructor
  · intro m hm
    obtain ⟨h, he, hr⟩ := runs_ofKind impl (m.localName escape) (svc.methodInfo m) m.kind
    refine ⟨h, hr, ?_⟩
    unfold DescService.endpoints Dict.ofList
    apply foldl_set_some
    · rw [List.map_map]
      have hd := hw.distinct
      rw [List.nodup_iff_pairwise_ne, List.pairwise_map] at hd ⊢
      exact hd.imp fun hne e => hne (methodUrl_inj e)
    · rw [List.mem_map]
      exact ⟨m, hm, by rw [he]; rfl⟩
  · intro path hp
    unfold DescService.endpoints Dict.ofList
    rw [foldl_set_none]
    · rfl
    · rw [List.map_map, List.mem_map]
      rintro ⟨m, hm, e⟩
      exact hp m hm e.symm

/-- **C54, clients**, if the Python names of the methods are different from one another and from the library's own (see
`C54_violation_same_name`, `C54_violation_own_name`): the client method with the Python name of a method calls the library's function for the
kind of that method, with its name, service and idempotency level. It takes `use_get` if and only if the method is unary and without side
effects. Closing the client is not affected. -/
theorem C54_client_partial (escape : List Char → List Char) (svc : DescService) (ha : NamesApart escape svc) (async : Bool) (p : Proto) :
    (∀ m ∈ svc.methods,
      invokeStub (svc.client escape async) p (m.localName escape) none = .executed m.kind ⟨m.name, svc.typeName, m.idempotency⟩ false ∧
      ∀ useGet, invokeStub (svc.client escape async) p (m.localName escape) (some useGet) =
        if m.kind = .unary ∧ m.idempotency = .noSideEffects then .executed m.kind ⟨m.name, svc.typeName, m.idempotency⟩ useGet
        else .typeError) ∧
    exitCloses (svc.client escape async) = true := by
  refine ⟨?_, ?_⟩
  · intro m hm
    have hs : ∀ k, ((sendsBy p k).all fun j => clientAttr (svc.client escape async) (sendName j) = some (.send j)) = true := by
      intro k
      rw [List.all_eq_true]
      intro j _
      rw [clientAttr_send ha async j]
      exact decide_eq_true rfl
    constructor
    · unfold invokeStub
      rw [clientAttr_stub ha async hm]
      dsimp only
      rw [clientAttr_execute ha async, if_neg (by simp)]
      dsimp only
      rw [if_pos (hs _)]
      rfl
    · intro useGet
      unfold invokeStub
      rw [clientAttr_stub ha async hm]
      dsimp only
      rw [clientAttr_execute ha async]
      dsimp only
      rw [if_pos (hs _)]
      by_cases h : m.kind = .unary ∧ m.idempotency = .noSideEffects
      · rw [if_pos h, if_neg (by simp [DescMethod.supportsGet, h.1, h.2])]
        rfl
      · rw [if_neg h, if_pos (by have h' := Decidable.not_and_iff_not_or_not.1 h; simpa [DescMethod.supportsGet] using h')]
  · unfold exitCloses clientAttr
    have h1 : Dict.get? clientInstance (pys! "close") = none := by decide +kernel
    rw [h1, client_own ha async _ (by decide +kernel)]
    cases async <;> decide +kernel

/-- **C54, GET.** A generated client offers GET for exactly those methods that are unary and of which a server accepts GET requests. -/
theorem C54_get (m : DescMethod) (svc : DescService) :
    m.supportsGet = true ↔ m.kind = .unary ∧ connectMethodCheck (svc.methodInfo m).idempotency (pys! "GET") = none := by
  obtain ⟨name, k, i⟩ := m
  cases k <;> cases i <;> simp [DescMethod.supportsGet, DescService.methodInfo, connectMethodCheck] <;> decide

instance (c : Char) : Decidable (NameChar c) := by unfold NameChar; infer_instance

/-- the path of a method of a well-formed service needs no escapes -/
theorem plainPath_of {svc : DescService} (hw : WellFormed svc) {m : DescMethod} (hm : m ∈ svc.methods) :
    PlainPath (methodPath ⟨m.name, svc.typeName, m.idempotency⟩) := by
  have hn : ∀ c, NameChar c → PathChar c := by
    rintro c (h | h | h | rfl)
    · exact .inr (.inl h)
    · exact .inl h
    · exact .inr (.inr (.inl h))
    · exact .inr (.inr (.inr (by decide)))
  refine ⟨⟨_, rfl⟩, ?_⟩
  intro c hc
  simp only [methodPath, List.mem_append, List.mem_singleton] at hc
  rcases hc with ((rfl | hc) | rfl) | hc
  · exact .inr (.inr (.inr (by decide)))
  · rcases hw.typeName c hc with h | rfl
    · exact hn c h
    · exact .inr (.inr (.inr (by decide)))
  · exact .inr (.inr (.inr (by decide)))
  · exact hn c (hw.names m hm c hc)

/-- **C54.** Generated clients and servers agree: for every method of a service, the calls a generated client makes are calls the generated
application serves, in the sense of C59 and C58, and they run the function of the user's service for that method (codecs, compressions,
messages and timeouts being as these ask for). -/
theorem C54_calls {Req Res : Type} (escape : List Char → List Char) (svc : DescService) (hw : WellFormed svc) (impl : ServiceImpl Req Res)
    (gzip : Compression) (readMax : Option Int) (compressions : Option (List Compression)) (codecs : List (ServerCodec Req Res))
    (c : Client Req Res) (codec : ServerCodec Req Res) (m : DescMethod) (hm : m ∈ svc.methods) :
    let app := App.new (svc.endpoints escape impl) svc.path gzip readMax compressions codecs
    let info : MethodInfo := ⟨m.name, svc.typeName, m.idempotency⟩
    SameCodec c app codec →
    ∃ h, RunsAttribute impl (m.localName escape) m.kind h ∧
    (∀ reqs user t, StreamCompressions c app → (c.proto = .connect → m.kind ≠ .unary) →
      (∀ r ∈ reqs, ∃ data, c.codec.encode r = .ok data ∧ (c.send.compress data).length < 2 ^ 32 ∧ WithinLimit app data) →
      StreamTimeoutFits c user t → StreamCall c app codec info info h reqs user t) ∧
    (∀ f req user t useGet, h = .unary f → c.proto = .connect → Compressions c app → (useGet = true → m.idempotency = .noSideEffects) →
      (∃ data, c.codec.encode req = .ok data ∧ (useGet = false → WithinLimit app data)) → TimeoutFits c user t →
      UnaryCall c app codec info info f req user t useGet) := by
  intro app info hc
  obtain ⟨h, hr, he⟩ := (C54_server escape svc hw impl).1 m hm
  refine ⟨h, hr, ?_, ?_⟩
  · intro reqs user t hcomp hk hmsg ht
    refine ⟨hc, hcomp, plainPath_of hw hm, he, ?_, hmsg, ht⟩
    intro hp
    have := hk hp
    revert this hr
    generalize m.kind = k
    intro hr
    cases hr <;> intro h
    · exact absurd rfl h
    · rfl
    · rfl
    · rfl
  · rintro f req user t useGet rfl hp hcomp hget hmsg ht
    exact ⟨hp, hc, hcomp, plainPath_of hw hm, he, hget, hmsg, ht⟩

/-- **C54, mounted applications.** A WSGI server that mounts the generated application at the service's path (`SCRIPT_NAME` the name of the service, `PATH_INFO` that of
the method) reaches the function of the user's service for that method, registered at the full path. -/
theorem C54_mounted {Req Res : Type} (escape : List Char → List Char) (svc : DescService) (hw : WellFormed svc) (impl : ServiceImpl Req Res)
    (gzip : Compression) (readMax : Option Int) (compressions : Option (List Compression)) (codecs : List (ServerCodec Req Res))
    (m : DescMethod) (hm : m ∈ svc.methods) (env : Environ)
    (hs : Dict.get? env.vars (pys! "SCRIPT_NAME") = some (pys! "/" ++ svc.typeName))
    (hp : Dict.get? env.vars (pys! "PATH_INFO") = some (pys! "/" ++ m.name)) :
    ∃ h, RunsAttribute impl (m.localName escape) m.kind h ∧
      WsgiTarget (App.new (svc.endpoints escape impl) svc.path gzip readMax compressions codecs) env
        (pys! "/" ++ svc.typeName ++ pys! "/" ++ m.name) ⟨⟨m.name, svc.typeName, m.idempotency⟩, h⟩ := by
  obtain ⟨hin, hout⟩ := C54_server escape svc hw impl
  obtain ⟨h, hr, he⟩ := hin m hm
  refine ⟨h, hr, ?_⟩
  have hroot : rooted (pys! "/" ++ m.name) = pys! "/" ++ m.name := rfl
  have hno : Dict.get? (svc.endpoints escape impl) (rooted (pys! "/" ++ m.name)) = none := by
    rw [hroot]
    refine hout _ fun m' _ heq => ?_
    have hmem : '/' ∈ m.name := by
      have h' : m.name = svc.typeName ++ pys! "/" ++ m'.name := by simpa using heq
      rw [h']
      simp
    exact absurd (hw.names m hm _ hmem) (by decide)
  have hpath : (App.new (svc.endpoints escape impl) svc.path gzip readMax compressions codecs).path = pys! "/" ++ svc.typeName := rfl
  have ht := WsgiTarget.mounted (app := App.new (svc.endpoints escape impl) svc.path gzip readMax compressions codecs) (env := env)
    (ep := ⟨⟨m.name, svc.typeName, m.idempotency⟩, h⟩) hp hno (by rw [hpath]; exact hs) (by
      rw [hpath, hroot]
      have : pys! "/" ++ svc.typeName ++ (pys! "/" ++ m.name) = pys! "/" ++ svc.typeName ++ pys! "/" ++ m.name := by simp
      rw [this]
      exact he)
  rw [hpath, hroot] at ht
  have e : pys! "/" ++ svc.typeName ++ (pys! "/" ++ m.name) = pys! "/" ++ svc.typeName ++ pys! "/" ++ m.name := by simp
  rwa [e] at ht

/-! ### the hypotheses are met -/

/-- a service with methods of all kinds, one of them without side effects, one with a name that is a keyword in Python -/
def elizaService : DescService :=
  ⟨pys! "connectrpc.eliza.v1.ElizaService",
    [⟨pys! "Say", .unary, .noSideEffects⟩, ⟨pys! "Converse", .bidi, .unknown⟩, ⟨pys! "IntroduceHTTPServer2Go", .serverStream, .unknown⟩,
     ⟨pys! "Pass", .clientStream, .idempotent⟩]⟩
/-- keywords get an underscore -/
def escapeSome (n : Str) : Str := if n = pys! "pass" ∨ n = pys! "class" then n ++ ['_'] else n

theorem eliza_wellFormed : WellFormed elizaService where
  typeName := by decide +kernel
  names := by decide +kernel
  distinct := by decide +kernel

theorem eliza_apart : NamesApart escapeSome elizaService where
  distinct := by decide +kernel
  free := by decide +kernel

example : WellFormed elizaService ∧ NamesApart escapeSome elizaService ∧ Escapes escapeSome ∧
    elizaService.methods.map (·.localName escapeSome) =
      [pys! "say", pys! "converse", pys! "introduce_http_server2_go", pys! "pass_"] ∧
    invokeStub (elizaService.client escapeSome true) .grpc (pys! "introduce_http_server2_go") none =
      .executed .serverStream ⟨pys! "IntroduceHTTPServer2Go", pys! "connectrpc.eliza.v1.ElizaService", .unknown⟩ false := by
  refine ⟨eliza_wellFormed, eliza_apart, ?_, by decide +kernel, by decide +kernel⟩
  intro n
  unfold escapeSome
  split
  · exact .inr rfl
  · exact .inl rfl

/-- an environment of the mounted application -/
example : let env : Environ := ⟨[(pys! "SCRIPT_NAME", pys! "/connectrpc.eliza.v1.ElizaService"), (pys! "PATH_INFO", pys! "/Say")], [], false⟩
    Dict.get? env.vars (pys! "SCRIPT_NAME") = some (pys! "/" ++ elizaService.typeName) ∧
    Dict.get? env.vars (pys! "PATH_INFO") = some (pys! "/" ++ pys! "Say") := by
  decide +kernel

/-- C54 is false of services in which two methods have the same Python name: the service is well formed, but the generated client has no
method for the first of them, and the application runs one function for both. -/
theorem C54_violation_same_name :
    let svc : DescService := ⟨pys! "a.S", [⟨pys! "GetURL", .unary, .unknown⟩, ⟨pys! "GetUrl", .unary, .unknown⟩]⟩
    WellFormed svc ∧
    (∀ (escape : List Char → List Char) (async : Bool) (p : Proto) (name : List Char) (useGet : Option Bool) (k : Kind) (i : Idempotency) (b : Bool),
      invokeStub (svc.client escape async) p name useGet ≠ .executed k ⟨pys! "GetURL", pys! "a.S", i⟩ b) ∧
    ∀ (escape : List Char → List Char) (impl : ServiceImpl Bytes Bytes), ∃ f,
      Dict.get? (svc.endpoints escape impl) (pys! "/a.S/GetURL") = some ⟨⟨pys! "GetURL", pys! "a.S", .unknown⟩, .unary f⟩ ∧
      Dict.get? (svc.endpoints escape impl) (pys! "/a.S/GetUrl") = some ⟨⟨pys! "GetUrl", pys! "a.S", .unknown⟩, .unary f⟩ := by
  intro svc
  refine ⟨⟨by decide +kernel, by decide +kernel, by decide +kernel⟩, ?_, ?_⟩
  · intro escape async p name useGet k i b h
    have hstub : ∀ s, clientAttr (svc.client escape async) name = some (.stub s) → s.method.name = pys! "GetUrl" := by
      intro s hs
      have hn : DescMethod.localName escape ⟨pys! "GetURL", .unary, .unknown⟩ = escape (pys! "get_url") := rfl
      have hn' : DescMethod.localName escape ⟨pys! "GetUrl", .unary, .unknown⟩ = escape (pys! "get_url") := rfl
      unfold clientAttr at hs
      split at hs
      · rename_i a ha
        cases hs
        have : ∀ a ∈ Dict.values clientInstance, a = .data := by decide +kernel
        have := this _ (List.mem_map.2 ⟨_, Dict.get?_some_mem ha, rfl⟩)
        cases this
      · have hd : svc.client escape async = Dict.set (Dict.set (clientClass async) (escape (pys! "get_url"))
            (.stub ⟨.unary, ⟨pys! "GetURL", pys! "a.S", .unknown⟩, false⟩)) (escape (pys! "get_url"))
            (.stub ⟨.unary, ⟨pys! "GetUrl", pys! "a.S", .unknown⟩, false⟩) := rfl
        rw [hd, Dict.get?_set] at hs
        split at hs
        · cases hs; rfl
        · rename_i hne
          rw [Dict.get?_set, if_neg hne] at hs
          have : ∀ a ∈ Dict.values (clientClass async), ∀ s, a ≠ .stub s := by
            intro a ha s e
            subst e
            have h2 : ∀ a ∈ Dict.values (clientClass async), (match a with | .stub _ => false | _ => true) = true := by
              cases async <;> decide +kernel
            cases h2 _ ha
          exact absurd rfl (this _ (List.mem_map.2 ⟨_, Dict.get?_some_mem hs, rfl⟩) s)
    unfold invokeStub at h
    split at h
    · rename_i s hs
      have h1 := hstub s hs
      split at h
      · cases h
      · split at h
        · split at h
          · injection h with _ hm _
            rw [hm] at h1
            revert h1
            show pys! "GetURL" ≠ _
            decide +kernel
          · cases h
        · cases h
    · cases h
  · intro escape impl
    exact ⟨impl (escape (pys! "get_url")) .unary, rfl, rfl⟩

/-- C54 is false of services with a method whose Python name is one of the library's own: after `ExecuteUnary`, no unary method of the
generated client can be called; after `Close`, the client cannot be used in a `with` statement. -/
theorem C54_violation_own_name :
    let svc : DescService := ⟨pys! "a.S", [⟨pys! "Say", .unary, .unknown⟩, ⟨pys! "ExecuteUnary", .unary, .unknown⟩, ⟨pys! "Close", .unary, .unknown⟩]⟩
    WellFormed svc ∧ (svc.methods.map (·.localName id)).Nodup ∧
    ∀ async p, invokeStub (svc.client id async) p (pys! "say") none = .typeError ∧ exitCloses (svc.client id async) = false := by
  refine ⟨⟨by decide +kernel, by decide +kernel, by decide +kernel⟩, by decide +kernel, ?_⟩
  intro async p
  cases async <;> cases p <;> decide +kernel

/-- **C54, clients, exactly.** For every service, whatever the names of its methods: a call of an attribute of a generated client runs an RPC if
and only if the attribute is not one of those a client object keeps, some method has that Python name (the last one that has it is called), no
method has the name of a function of the library that the call goes through, and `use_get` is given only to unary methods without side
effects. Leaving a `with` statement closes the client if and only if no method has the name `close`. -/
theorem C54_client_exact (escape : List Char → List Char) (svc : DescService) (async : Bool) (p : Proto) :
    (∀ (name : List Char) (useGet : Option Bool) (k : Kind) (info : MethodInfo) (b : Bool),
      invokeStub (svc.client escape async) p name useGet = .executed k info b ↔
        name ∉ kept ∧ ∃ m, LastOfName escape svc name m ∧ k = m.kind ∧ info = ⟨m.name, svc.typeName, m.idempotency⟩ ∧
          (∀ m' ∈ svc.methods, m'.localName escape ∉ ownFunctions p m.kind) ∧
          ((useGet = none ∧ b = false) ∨ (useGet = some b ∧ m.kind = .unary ∧ m.idempotency = .noSideEffects))) ∧
    (exitCloses (svc.client escape async) = true ↔ ∀ m ∈ svc.methods, m.localName escape ≠ pys! "close") := by
  constructor
  · intro name useGet k info b
    have hget : ∀ m : DescMethod, (useGet.isSome && !(m.supportsGet)) = false ↔
        (useGet = none ∨ (m.kind = .unary ∧ m.idempotency = .noSideEffects)) := by
      rintro ⟨n, k, i⟩
      cases useGet with
      | none => exact ⟨fun _ => .inl rfl, fun _ => rfl⟩
      | some g => cases k <;> cases i <;> simp [DescMethod.supportsGet]
    constructor
    · intro h
      unfold invokeStub at h
      split at h
      · rename_i s hs
        obtain ⟨hk, m, hl, rfl⟩ := (clientAttr_of_stub ..).1 hs
        split at h
        · cases h
        · rename_i hg
          have hg := (hget m).1 (by simpa using hg)
          split at h
          · rename_i k' hx
            have := clientAttr_execute_kind _ _ _ _ _ hx
            dsimp only at this hx
            subst this
            split at h
            · rename_i hall
              injection h with h1 h2 h3
              subst h1 h2 h3
              refine ⟨hk, m, hl, rfl, rfl, (all_free escape svc async p m.kind).1 ⟨hall, (clientAttr_execute_iff ..).1 hx⟩, ?_⟩
              cases useGet with
              | none => exact .inl ⟨rfl, rfl⟩
              | some g => exact .inr ⟨rfl, hg.resolve_left (fun h => by cases h)⟩
            · cases h
          · cases h
      · cases h
    · rintro ⟨hk, m, hl, rfl, rfl, hfree, hb⟩
      obtain ⟨hall, hx⟩ := (all_free escape svc async p m.kind).2 hfree
      unfold invokeStub
      rw [(clientAttr_of_stub ..).2 ⟨hk, m, hl, rfl⟩]
      dsimp only
      have hg : ¬ (useGet.isSome && !(m.supportsGet)) = true := by
        rw [(hget m).2 (hb.imp (·.1) (·.2))]; decide
      rw [if_neg (by exact hg), (clientAttr_execute_iff ..).2 hx]
      dsimp only
      rw [if_pos hall]
      rcases hb with ⟨rfl, rfl⟩ | ⟨rfl, _⟩ <;> rfl
  · unfold exitCloses
    rw [decide_eq_true_iff]
    apply clientAttr_library
    · decide +kernel
    · cases async <;> decide +kernel
    · intro s h; cases h

/-- both directions, by a service with a method of the name of a function of the library: calls by gRPC go through it, unary calls by Connect do
not -/
example :
    let svc : DescService := ⟨pys! "a.S", [⟨pys! "Say", .unary, .unknown⟩, ⟨pys! "_SendRequestBidiStream", .unary, .unknown⟩]⟩
    ∀ async, invokeStub (svc.client id async) .connect (pys! "say") none = .executed .unary ⟨pys! "Say", pys! "a.S", .unknown⟩ false ∧
      invokeStub (svc.client id async) .grpc (pys! "say") none = .typeError := by
  intro svc async
  cases async <;> decide +kernel

/-- **C54 is false of every service in which two methods have the same Python name**: the generated client has no way to call the first, and if they
are of one kind the application runs one function for both. -/
theorem C54_violation_same_name_all {Req Res : Type} (escape : List Char → List Char) (svc : DescService) (hw : WellFormed svc)
    (before between after : List DescMethod) (m m' : DescMethod) (hs : svc.methods = before ++ m :: between ++ m' :: after)
    (hn : m.localName escape = m'.localName escape) :
    (∀ async p name useGet k i b, invokeStub (svc.client escape async) p name useGet ≠ .executed k ⟨m.name, svc.typeName, i⟩ b) ∧
    (m.kind = m'.kind → ∀ impl : ServiceImpl Req Res, ∃ h,
      Dict.get? (svc.endpoints escape impl) (pys! "/" ++ svc.typeName ++ pys! "/" ++ m.name) = some ⟨⟨m.name, svc.typeName, m.idempotency⟩, h⟩ ∧
      Dict.get? (svc.endpoints escape impl) (pys! "/" ++ svc.typeName ++ pys! "/" ++ m'.name) =
        some ⟨⟨m'.name, svc.typeName, m'.idempotency⟩, h⟩) := by
  constructor
  · intro async p name useGet k i b h
    obtain ⟨_, x, ⟨a, c, h1, h2, h3⟩, _, hi, _⟩ := ((C54_client_exact escape svc async p).1 name useGet k _ b).1 h
    injection hi with hi _ _
    have hd := hw.distinct
    rw [hs] at h1
    have hsame : ∀ (a c : List DescMethod) (x : DescMethod), before ++ m :: between ++ m' :: after = a ++ x :: c → m.name = x.name →
        ((before ++ m :: between ++ m' :: after).map (·.name)).Nodup → a = before ∧ x = m ∧ c = between ++ m' :: after := by
      intro a c x h1 hi hd
      have he : before ++ m :: (between ++ m' :: after) = a ++ x :: c := by rw [← h1, List.append_assoc]; rfl
      rw [h1, List.map_append, List.map_cons] at hd
      rw [List.nodup_append, List.nodup_cons] at hd
      rcases List.append_eq_append_iff.1 he with ⟨l, rfl, hl⟩ | ⟨l, rfl, hl⟩
      · cases l with
        | nil =>
          rw [List.nil_append] at hl
          injection hl with e1 e2
          exact ⟨List.append_nil _, e1.symm, e2.symm⟩
        | cons y l =>
          rw [List.cons_append] at hl
          injection hl with e1 e2
          subst e1
          exact absurd hi (hd.2.2 _ (by simp) _ (by simp))
      · cases l with
        | nil =>
          rw [List.nil_append] at hl
          injection hl with e1 e2
          exact ⟨(List.append_nil _).symm, e1, e2⟩
        | cons y l =>
          rw [List.cons_append] at hl
          injection hl with e1 e2
          subst e1
          subst e2
          exact absurd (List.mem_map.2 ⟨m, by simp, hi⟩) hd.2.1.1
    rw [hs] at hd
    obtain ⟨rfl, rfl, rfl⟩ := hsame a c x h1 hi hd
    exact h3 m' (by simp) (hn.symm.trans h2)
  · intro hk impl
    have hm : m ∈ svc.methods := by rw [hs]; simp
    have hm' : m' ∈ svc.methods := by rw [hs]; simp
    obtain ⟨h, hr, he⟩ := (C54_server escape svc hw impl).1 m hm
    obtain ⟨h', hr', he'⟩ := (C54_server escape svc hw impl).1 m' hm'
    rw [← hn, ← hk] at hr'
    have : h = h' := by
      generalize m.kind = kk at hr hr'
      cases hr <;> cases hr' <;> rfl
    subst this
    exact ⟨h, he, he'⟩

end Props
