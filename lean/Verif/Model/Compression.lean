import Verif.Model.Base
/-
Model of `src/connectrpc/_compression.py`.
-/
namespace Conn
open Py

/-- `_compression.py:28-29` `_default_compressions`; `gzip` is the process-wide `GzipCompression()` object
(`compression/gzip.py`), whose `name()` is "gzip". -/
def defaultCompressions (gzip : Compression) : Dict Str Compression :=
  [(pys! "gzip", gzip), (pys! "identity", .identity)]

/-- `_compression.py:32-40` `resolve_compressions`. -/
def resolveCompressions (gzip : Compression) : Option (List Compression) → Dict Str Compression
  | none => defaultCompressions gzip
  | some cs => (Dict.ofList (cs.map fun c => (c.name, c))).set (pys! "identity") .identity

/-- the loop of `_compression.py:46-50`; a compression object is always true. -/
def negotiateFrom (compressions : Dict Str Compression) : List Str → Compression
  | [] => .identity
  | accept :: rest =>
    match compressions.get? (strip accept) with
    | some c => c
    | none => negotiateFrom compressions rest

/-- `_compression.py:43-50` `negotiate_compression`. -/
def negotiateCompression (acceptEncoding : Str) (compressions : Dict Str Compression) : Compression :=
  negotiateFrom compressions (split ',' acceptEncoding)

end Conn
