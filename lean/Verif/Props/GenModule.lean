import Verif.Proofs.CodeGen
import Verif.Proofs.Url
import Verif.Spec.GenModule
/-
C81: generated modules.
-/
namespace Props
open Conn Py Spec

theorem ending_documented (n : Str) (r : Role) (a : Bool) : n ++ classEnding r a = documentedName n r a := by
  cases r <;> cases a <;> simp [classEnding, documentedName]

theorem asked_iff (io : IOOption) (a : Bool) : io.includes a = true ↔ AskedFor io a := by
  cases io <;> cases a <;> simp [IOOption.includes, AskedFor]

theorem mem_classStatements {escape : Str → Str} {io : IOOption} {services : List FileService} {p : Str × GenClass} :
    p ∈ classStatements escape io services ↔
      ∃ s ∈ services, ∃ r a, AskedFor io a ∧ p = (documentedName (escape s.name) r a, ⟨s.desc, r, a⟩) := by
  unfold classStatements
  rw [List.mem_flatMap]
  refine exists_congr fun s => and_congr_right fun _ => ?_
  have hone : ∀ a, p ∈ (if io.includes a then s.stubClasses escape a else []) ↔
      ∃ r, AskedFor io a ∧ p = (documentedName (escape s.name) r a, ⟨s.desc, r, a⟩) := by
    intro a
    by_cases h : io.includes a = true
    · rw [if_pos h]
      simp only [FileService.stubClasses, List.map_cons, List.map_nil, List.mem_cons, List.not_mem_nil, or_false, ending_documented]
      constructor
      · rintro (e | e | e)
        · exact ⟨_, (asked_iff io a).1 h, e⟩
        · exact ⟨_, (asked_iff io a).1 h, e⟩
        · exact ⟨_, (asked_iff io a).1 h, e⟩
      · rintro ⟨r, _, e⟩
        cases r
        · exact .inl e
        · exact .inr (.inl e)
        · exact .inr (.inr e)
    · rw [if_neg h]
      constructor
      · intro h; cases h
      · rintro ⟨r, ha, _⟩; exact absurd ((asked_iff io a).2 ha) h
  rw [List.mem_append, hone, hone]
  constructor
  · rintro (⟨r, h⟩ | ⟨r, h⟩)
    · exact ⟨r, _, h⟩
    · exact ⟨r, _, h⟩
  · rintro ⟨r, a, h⟩
    cases a
    · exact .inr ⟨r, h⟩
    · exact .inl ⟨r, h⟩

/-- a name that is defined has one of the definitions -/
theorem ofList_mem {V : Type} {l : List (Str × V)} {n : Str} {v : V} (h : Dict.get? (Dict.ofList l) n = some v) : (n, v) ∈ l := by
  unfold Dict.ofList at h
  rw [get?_ofList_aux] at h
  cases hl : (l.filter fun p => p.1 = n).getLast? with
  | none => rw [hl] at h; cases h
  | some p =>
    rw [hl] at h
    have hp := List.mem_of_getLast? hl
    rw [List.mem_filter] at hp
    have hn : p.1 = n := by simpa using hp.2
    have hv : p.2 = v := by simpa using h
    rw [← hn, ← hv]
    exact hp.1

/-- … one of the last of them -/
theorem foldl_set_mem {V : Type} {l : List (Str × V)} {n : Str} (d : Dict Str V) (h : n ∈ l.map (·.1)) :
    ∃ v, (n, v) ∈ l ∧ (l.foldl (fun d p => d.set p.1 p.2) d).get? n = some v := by
  rw [get?_ofList_aux]
  cases hl : (l.filter fun p => p.1 = n).getLast? with
  | none =>
    rw [List.getLast?_eq_none_iff, List.filter_eq_nil_iff] at hl
    obtain ⟨p, hp, hn⟩ := List.mem_map.1 h
    exact absurd (by simpa using hn) (hl p hp)
  | some p =>
    have hp := List.mem_of_getLast? hl
    rw [List.mem_filter] at hp
    have hn : p.1 = n := by simpa using hp.2
    exact ⟨p.2, by rw [← hn]; exact hp.1, rfl⟩

theorem documented_inj {n : Str} {r r' : Role} {a a' : Bool} (h : documentedName n r a = documentedName n r' a') : r = r' ∧ a = a' := by
  cases r <;> cases a <;> cases r' <;> cases a' <;> first
    | exact ⟨rfl, rfl⟩
    | (simp [documentedName] at h)

theorem documented_cases {n m : Str} {r r' : Role} {a a' : Bool} (h : documentedName n r a = documentedName m r' a') :
    n = m ∨ ∃ e ∈ endings, n = m ++ e ∨ m = n ++ e := by
  cases r <;> cases a <;> cases r' <;> cases a' <;> dsimp only [documentedName] at h <;> first
    | exact .inl (List.append_cancel_right h)
    | exact .inl h
    | exact .inr ⟨_, by decide, .inl h⟩
    | exact .inr ⟨_, by decide, .inr h.symm⟩
    | (refine .inr ⟨pys! "Client", by decide, .inl (List.append_cancel_right (bs := pys! "Sync") ?_)⟩; rw [h]; simp; done)
    | (refine .inr ⟨pys! "Client", by decide, .inr (List.append_cancel_right (bs := pys! "Sync") ?_)⟩; rw [← h]; simp; done)
    | (have h := congrArg List.reverse h; simp at h)

theorem stub_keys_nodup (escape : Str → Str) (io : IOOption) (s : FileService) : ((classStatements escape io [s]).map (·.1)).Nodup := by
  unfold classStatements
  rw [List.flatMap_cons, List.flatMap_nil, List.append_nil]
  cases io <;> simp [IOOption.includes, FileService.stubClasses, classEnding]

theorem classStatements_append (escape : Str → Str) (io : IOOption) (l l' : List FileService) :
    classStatements escape io (l ++ l') = classStatements escape io l ++ classStatements escape io l' := List.flatMap_append

/-- **C81, what there is.** A file with services gives a module; every class in it is the class of one of the services, under the documented name, of a
kind that was asked for. A file without services gives none. -/
theorem C81_only (escape : List Char → List Char) (io : IOOption) (services : List FileService) :
    (generateModule escape io services = none ↔ services = []) ∧
    ∀ mod, generateModule escape io services = some mod → ∀ name cls, Dict.get? mod name = some cls →
      ∃ s ∈ services, cls.svc = s.desc ∧ AskedFor io cls.async ∧ name = documentedName (escape s.name) cls.role cls.async := by
  unfold generateModule
  constructor
  · cases services <;> simp
  · intro mod h name cls hc
    split at h
    · cases h
    · cases h
      obtain ⟨s, hs, r, a, ha, e⟩ := mem_classStatements.1 (ofList_mem hc)
      cases e
      exact ⟨s, hs, rfl, ha, rfl⟩

/-- **C81, exactly when.** Of services with different full names: the module has the class of a service under its documented name if and only if no class
of a later service has the same name. -/
theorem C81_exact (escape : List Char → List Char) (io : IOOption) (pre post : List FileService) (s : FileService)
    (hd : ∀ t ∈ post, t.desc ≠ s.desc) (r : Role) (a : Bool) (ha : AskedFor io a) :
    (∃ mod, generateModule escape io (pre ++ s :: post) = some mod ∧ Dict.get? mod (documentedName (escape s.name) r a) = some ⟨s.desc, r, a⟩) ↔
      ∀ t ∈ post, ∀ r' a', AskedFor io a' → documentedName (escape t.name) r' a' ≠ documentedName (escape s.name) r a := by
  have hg : generateModule escape io (pre ++ s :: post) = some ((classStatements escape io post).foldl (fun d p => d.set p.1 p.2)
      ((classStatements escape io [s]).foldl (fun d p => d.set p.1 p.2) (Dict.ofList (classStatements escape io pre)))) := by
    unfold generateModule
    rw [if_neg (by simp), show pre ++ s :: post = pre ++ ([s] ++ post) from rfl, classStatements_append, classStatements_append]
    simp only [Dict.ofList, List.foldl_append]
  rw [hg]
  constructor
  · rintro ⟨mod, e, h⟩ t ht r' a' ha' hn
    cases e
    obtain ⟨v, hv, hv'⟩ := foldl_set_mem (l := classStatements escape io post)
      ((classStatements escape io [s]).foldl (fun d p => d.set p.1 p.2) (Dict.ofList (classStatements escape io pre)))
      (n := documentedName (escape s.name) r a) (by
        rw [List.mem_map]
        exact ⟨_, mem_classStatements.2 ⟨t, ht, r', a', ha', rfl⟩, hn⟩)
    rw [h] at hv'
    cases hv'
    obtain ⟨u, hu, _, _, _, e⟩ := mem_classStatements.1 hv
    have e := congrArg (fun p => p.2.svc) e
    exact hd u hu e.symm
  · intro h
    refine ⟨_, rfl, ?_⟩
    rw [foldl_set_none]
    · apply foldl_set_some _ _ _ _ (stub_keys_nodup escape io s)
      exact mem_classStatements.2 ⟨s, by simp, r, a, ha, rfl⟩
    · intro hm
      obtain ⟨p, hp, hn⟩ := List.mem_map.1 hm
      obtain ⟨t, ht, r', a', ha', rfl⟩ := mem_classStatements.1 hp
      exact h t ht r' a' ha' hn

/-- **C81, classes**, of files in which no service has the name of another with one of the endings (see `C81_violation_ending`): the module has every class that
was asked for, under its documented name. -/
theorem C81_classes_partial (escape : List Char → List Char) (io : IOOption) (services : List FileService) (hap : ServicesApart escape services)
    (s : FileService) (hs : s ∈ services) :
    ∃ mod, generateModule escape io services = some mod ∧
      ∀ r a, AskedFor io a → Dict.get? mod (documentedName (escape s.name) r a) = some ⟨s.desc, r, a⟩ := by
  obtain ⟨pre, post, rfl⟩ := List.append_of_mem hs
  have hne : ∀ t ∈ post, escape t.name ≠ escape s.name := by
    have h := hap.distinct
    rw [List.map_append, List.nodup_append] at h
    have h := h.2.1
    rw [List.map_cons, List.nodup_cons] at h
    intro t ht e
    exact h.1 (List.mem_map.2 ⟨t, ht, e⟩)
  have hlater : ∀ t ∈ post, ∀ r a r' a', documentedName (escape t.name) r' a' ≠ documentedName (escape s.name) r a := by
    intro t ht r a r' a' e
    have htm : t ∈ pre ++ s :: post := by simp [ht]
    rcases documented_cases e with h | ⟨x, hx, h | h⟩
    · exact hne t ht h
    · exact hap.endings t htm s hs x hx h
    · exact hap.endings s hs t htm x hx h
  have hg : ∃ mod, generateModule escape io (pre ++ s :: post) = some mod := by
    unfold generateModule
    rw [if_neg (by simp)]
    exact ⟨_, rfl⟩
  obtain ⟨mod, hg⟩ := hg
  refine ⟨mod, hg, ?_⟩
  intro r a ha
  have hg' : mod = ((classStatements escape io post).foldl (fun d p => d.set p.1 p.2)
      ((classStatements escape io [s]).foldl (fun d p => d.set p.1 p.2) (Dict.ofList (classStatements escape io pre)))) := by
    unfold generateModule at hg
    rw [if_neg (by simp), show pre ++ s :: post = pre ++ ([s] ++ post) from rfl, classStatements_append, classStatements_append] at hg
    simp only [Dict.ofList, List.foldl_append] at hg
    injection hg with hg
    exact hg.symm
  rw [hg', foldl_set_none]
  · apply foldl_set_some _ _ _ _ (stub_keys_nodup escape io s)
    exact mem_classStatements.2 ⟨s, by simp, r, a, ha, rfl⟩
  · intro hm
    obtain ⟨p, hp, hn⟩ := List.mem_map.1 hm
    obtain ⟨t, ht, r', a', _, rfl⟩ := mem_classStatements.1 hp
    exact hlater t ht r a r' a' hn

/-- C81 is false of files with services `Foo` and `FooClient`, in this order: the module has no client for `Foo`. -/
theorem C81_violation_ending :
    let foo : FileService := ⟨pys! "Foo", ⟨pys! "a.Foo", [⟨pys! "Say", .unary, .unknown⟩]⟩⟩
    let fooClient : FileService := ⟨pys! "FooClient", ⟨pys! "a.FooClient", [⟨pys! "Say", .unary, .unknown⟩]⟩⟩
    ∃ mod, generateModule id .both [foo, fooClient] = some mod ∧ Dict.get? mod (pys! "FooClient") = some ⟨fooClient.desc, .service, true⟩ ∧
      ∀ name, Dict.get? mod name ≠ some ⟨foo.desc, .client, true⟩ := by
  intro foo fooClient
  refine ⟨_, rfl, by decide +kernel, ?_⟩
  intro name h
  obtain ⟨t, ht, h1, _, h3⟩ := (C81_only id .both [foo, fooClient]).2 _ rfl _ _ h
  have e : name = pys! "FooClient" := by
    rw [List.mem_cons, List.mem_singleton] at ht
    rcases ht with rfl | rfl
    · exact h3
    · exact absurd h1 (by decide +kernel)
  subst e
  revert h
  decide +kernel

/-! ### message classes -/

theorem messageParts_eq (ps parts : List Str) : messageParts parts ps = parts ++ ps := by
  induction ps generalizing parts with
  | nil => simp [messageParts]
  | cons p r ih => rw [messageParts, ih]; simp

/-- **C81, messages.** The name of a message class is that of the message inside those it is nested in, outermost first. -/
theorem C81_message_name (methodFile : List Char) (m : DescMessage) :
    (messageIdent methodFile m).name = join ['.'] (m.parents.reverse ++ [m.name]) := by
  unfold messageIdent
  simp only [messageParts_eq]
  split <;> simp

theorem removeProto_append (s : Str) : removeProto (s ++ pys! ".proto") = s := by
  unfold removeProto
  rw [if_pos (by rw [List.isSuffixOf_iff_suffix]; exact ⟨s, rfl⟩), List.length_append]
  simp

/-- hyphens to underscores -/
def plainWord (s : Str) : Str := s.map fun c => if c = '-' then '_' else c

theorem slash_map (s : Str) (h : '/' ∉ s) : (plainWord s).map (fun c => if c = '/' then '.' else c) = plainWord s := by
  unfold plainWord
  rw [List.map_map]
  apply List.map_congr_left
  intro c hc
  have : c ≠ '/' := by rintro rfl; exact h hc
  simp only [Function.comp]
  by_cases h2 : c = '-'
  · rw [if_pos h2]; decide
  · rw [if_neg h2, if_neg this]

theorem moduleName_file (dirs : List Str) (base : Str) (hd : ∀ d ∈ dirs, '/' ∉ d) (hb : '/' ∉ base) :
    moduleName (fileName dirs base) = (dirs.map plainWord).flatMap (· ++ ['.']) ++ plainWord base ++ pys! "_pb2" := by
  unfold moduleName fileName
  simp only
  rw [removeProto_append, List.map_append, List.map_append]
  rw [show base.map (fun c => if c = '-' then '_' else c) = plainWord base from rfl, slash_map base hb]
  congr 2
  clear hb
  induction dirs with
  | nil => rfl
  | cons d r ih =>
    rw [List.flatMap_cons, List.map_append, List.map_append, ih (fun x hx => hd x (List.mem_cons_of_mem _ hx)), List.map_cons, List.flatMap_cons]
    congr 1
    rw [List.map_append, List.map_append, show d.map (fun c => if c = '-' then '_' else c) = plainWord d from rfl, slash_map d (hd d (by simp))]
    rfl

theorem plainWord_no_dot {s : Str} (h : '.' ∉ s) : ∀ x ∈ plainWord s, x ≠ '.' := by
  intro x hx
  unfold plainWord at hx
  rw [List.mem_map] at hx
  obtain ⟨c, hc, rfl⟩ := hx
  split
  · decide
  · rintro rfl; exact h hc

theorem split_dirs (c : Char) (dirs : List Str) (last : Str) (hd : ∀ d ∈ dirs, ∀ x ∈ d, x ≠ c) (hl : ∀ x ∈ last, x ≠ c) :
    split c (dirs.flatMap (· ++ [c]) ++ last) = dirs ++ [last] := by
  induction dirs with
  | nil => simpa using split_no_sep c last hl
  | cons d r ih =>
    rw [List.flatMap_cons, List.append_assoc, List.append_assoc, List.singleton_append, split_append_sep c _ _ (hd d (by simp)),
      ih (fun x hx => hd x (List.mem_cons_of_mem _ hx))]
    rfl

/-- **C81, messages of other files.** A message class is imported from the module that `protoc` makes for the file of the message, wherever the generated
module is. -/
theorem C81_message_other (dirs : List (List Char)) (base : List Char) (h : PathParts dirs base) (package : List (List Char)) (methodFile : List Char)
    (m : DescMessage) (hm : m.file = fileName dirs base) (hne : m.file ≠ methodFile) :
    resolveImport package (messageIdent methodFile m).module = some (pb2Module dirs base) := by
  unfold messageIdent
  rw [if_pos hne, hm, moduleName_file _ _ (fun d hd => (h.1 d hd).2.1) h.2.2.1]
  have hsp : split '.' ((dirs.map plainWord).flatMap (· ++ ['.']) ++ plainWord base ++ pys! "_pb2") = pb2Module dirs base := by
    rw [List.append_assoc, split_dirs '.']
    · rfl
    · intro d hd
      obtain ⟨x, hx, rfl⟩ := List.mem_map.1 hd
      exact plainWord_no_dot (h.1 x hx).2.2
    · intro x hx
      rcases List.mem_append.1 hx with hx | hx
      · exact plainWord_no_dot h.2.2.2 x hx
      · exact (by decide : ∀ x ∈ pys! "_pb2", x ≠ '.') x hx
  have hdot : ∀ rest, (dirs.map plainWord).flatMap (· ++ ['.']) ++ plainWord base ++ pys! "_pb2" ≠ '.' :: rest := by
    intro rest e
    have hfirst : ∀ (w x : Str), w ≠ [] → '.' ∉ w → plainWord w ++ x ≠ '.' :: rest := by
      intro w x hw hd e
      cases w with
      | nil => exact hw rfl
      | cons c r =>
        have e1 := (List.cons.inj e).1
        exact plainWord_no_dot hd _ (by unfold plainWord; simp) e1
    cases dirs with
    | nil => 
      rw [List.map_nil, List.flatMap_nil, List.nil_append] at e
      exact hfirst base _ h.2.1 h.2.2.2 e
    | cons d r =>
      rw [List.map_cons, List.flatMap_cons, List.append_assoc, List.append_assoc, List.append_assoc] at e
      exact hfirst d _ (h.1 d (by simp)).1 (h.1 d (by simp)).2.2 e
  rw [← hsp]
  unfold resolveImport
  split
  · rename_i rest e; exact absurd e (hdot rest)
  · rfl

/-- **C81, messages of the same file.** A message class is imported from the module that `protoc` makes for the file, in the package of the generated
module, which has to be in a package. -/
theorem C81_message_same (dirs : List (List Char)) (base : List Char) (h : PathParts dirs base) (package : List (List Char)) (hp : package ≠ [])
    (m : DescMessage) (hm : m.file = fileName dirs base) :
    resolveImport package (messageIdent (fileName dirs base) m).module = some (package ++ pb2Module [] base) := by
  unfold messageIdent
  rw [if_neg (by simp [hm]), hm]
  have hlast : (split '/' (fileName dirs base)).getLastD [] = fileName [] base := by
    unfold fileName
    rw [List.append_assoc, split_dirs '/']
    · simp
    · intro d hd x hx e
      subst e
      exact (h.1 d hd).2.1 hx
    · intro x hx
      rcases List.mem_append.1 hx with hx | hx
      · rintro rfl; exact h.2.2.1 hx
      · exact (by decide : ∀ x ∈ pys! ".proto", x ≠ '/') x hx
  dsimp only
  rw [hlast, moduleName_file [] base (by simp) h.2.2.1]
  have : split '.' (plainWord base ++ pys! "_pb2") = pb2Module [] base := by
    rw [split_no_sep]
    · rfl
    · intro x hx
      rcases List.mem_append.1 hx with hx | hx
      · exact plainWord_no_dot h.2.2.2 x hx
      · exact (by decide : ∀ x ∈ pys! "_pb2", x ≠ '.') x hx
  show resolveImport package ('.' :: (plainWord base ++ pys! "_pb2")) = _
  unfold resolveImport
  rw [← this]
  exact if_neg hp

/-! ### the hypotheses are met -/

def twoServices : List FileService :=
  [⟨pys! "Foo", ⟨pys! "a.Foo", [⟨pys! "Say", .unary, .unknown⟩]⟩⟩, ⟨pys! "Bar", ⟨pys! "a.Bar", []⟩⟩]

example : ServicesApart id twoServices ∧ (∃ mod, generateModule id .sync twoServices = some mod ∧
    mod.keys = [pys! "FooSync", pys! "FooWSGIApplication", pys! "FooClientSync", pys! "BarSync", pys! "BarWSGIApplication", pys! "BarClientSync"]) :=
  ⟨⟨by decide +kernel, by decide +kernel⟩, _, rfl, by decide +kernel⟩

example : PathParts [pys! "a", pys! "my-dir"] (pys! "x-y") ∧
    messageIdent (pys! "b.proto") ⟨fileName [pys! "a", pys! "my-dir"] (pys! "x-y"), pys! "M", [pys! "Inner", pys! "Outer"]⟩ =
      ⟨pys! "a.my_dir.x_y_pb2", pys! "Outer.Inner.M"⟩ ∧
    messageIdent (pys! "a/my-dir/x-y.proto") ⟨fileName [pys! "a", pys! "my-dir"] (pys! "x-y"), pys! "M", []⟩ = ⟨pys! ".x_y_pb2", pys! "M"⟩ := by
  refine ⟨⟨by decide +kernel, by decide +kernel⟩, by decide +kernel, by decide +kernel⟩

end Props
