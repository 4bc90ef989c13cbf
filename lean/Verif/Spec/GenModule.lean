import Verif.Model.GenModule
/-
Specification for generated modules (C81).
-/
namespace Spec
open Conn Py

/-- The names of the classes for a service, as documented: `Foo`, `FooASGIApplication` and `FooClient` for asyncio, `FooSync`, `FooWSGIApplication` and
`FooClientSync` without. -/
def documentedName (n : List Char) : Role → Bool → List Char
  | .service, true => n
  | .application, true => n ++ pys! "ASGIApplication"
  | .client, true => n ++ pys! "Client"
  | .service, false => n ++ pys! "Sync"
  | .application, false => n ++ pys! "WSGIApplication"
  | .client, false => n ++ pys! "ClientSync"

/-- The kinds of classes asked for by the option `io`. -/
def AskedFor : IOOption → Bool → Prop
  | .both, _ => True
  | .async, a => a = true
  | .sync, a => a = false
instance (io : IOOption) (a : Bool) : Decidable (AskedFor io a) := by
  cases io <;> cases a <;> unfold AskedFor <;> infer_instance

/-- The endings of class names. -/
def endings : List (List Char) := [pys! "ASGIApplication", pys! "Client", pys! "Sync", pys! "WSGIApplication", pys! "ClientSync"]

/-- The services have different names, and none has the name of another with one of the endings. -/
structure ServicesApart (escape : List Char → List Char) (services : List FileService) : Prop where
  distinct : (services.map fun s => escape s.name).Nodup
  endings : ∀ s ∈ services, ∀ t ∈ services, ∀ e ∈ endings, escape s.name ≠ escape t.name ++ e

/-- The path of the module that `protoc --python_out` makes for the file with these directories and this name (without `.proto`): hyphens become
underscores. -/
def pb2Module (dirs : List (List Char)) (base : List Char) : List (List Char) :=
  (dirs.map fun d => d.map fun c => if c = '-' then '_' else c) ++ [(base.map fun c => if c = '-' then '_' else c) ++ pys! "_pb2"]

/-- The name of a file in directories. -/
def fileName (dirs : List (List Char)) (base : List Char) : List Char := dirs.flatMap (· ++ ['/']) ++ base ++ pys! ".proto"

/-- The parts of the names of files: no slashes and dots, not empty. -/
def PathParts (dirs : List (List Char)) (base : List Char) : Prop :=
  (∀ d ∈ dirs, d ≠ [] ∧ '/' ∉ d ∧ '.' ∉ d) ∧ base ≠ [] ∧ '/' ∉ base ∧ '.' ∉ base

/-- What the import system of Python makes of a module name, in a module of a package: a leading dot stands for the package. There is no package
at the top level, where such imports fail. -/
def resolveImport (package : List (List Char)) (name : List Char) : Option (List (List Char)) :=
  match name with
  | '.' :: rest => if package = [] then none else some (package ++ split '.' rest)
  | _ => some (split '.' name)

end Spec
