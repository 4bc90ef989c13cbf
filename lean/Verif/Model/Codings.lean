import Verif.Model.Compression
/-
Model of the compressions of `src/connectrpc/compression/`: `gzip.py`, `brotli.py`, `zstd.py`. The libraries (`gzip` and `zlib` of Python, `brotli`, `zstandard`) are
not code of this library; a parameter says what one of them makes of its input.
-/
namespace Conn
open Py

/-- What a library finds at the beginning of its input: a complete frame (gzip: a member with header and checksum; brotli: a stream; zstd: a frame), its content and what
follows it; only the beginning of one, and what of the content is known by then; or something else. -/
inductive Scan where
  | frame (content rest : Bytes)
  | incomplete (content : Bytes)
  | bad
deriving DecidableEq, Repr

/-- A format, as its library writes (at the level or quality of the constructor) and reads it. -/
structure Format where
  write : Bytes → Bytes
  scan : Bytes → Scan

/-- `gzip.decompress` (Lib/gzip.py of Python 3.11 and later): members are decoded one after the other until nothing is left; zero bytes after a member are skipped; a member that
is not complete raises `EOFError`, anything else `BadGzipFile` or `zlib.error`. Every member has at least one byte, so `data.length` steps are enough. -/
def gzipMembers (f : Format) : Nat → Bytes → Except Exc Bytes
  | _, [] => .ok []
  | 0, _ :: _ => .error (.other (.custom 0) (pys! "BadGzipFile"))
  | n + 1, b :: data =>
    match f.scan (b :: data) with
    | .bad => .error (.other (.custom 0) (pys! "BadGzipFile"))
    | .incomplete _ => .error (.other (.custom 1) (pys! "Compressed file ended before the end-of-stream marker was reached"))
    | .frame content rest =>
      match gzipMembers f n (rest.dropWhile (· == 0)) with
      | .error e => .error e
      | .ok more => .ok (content ++ more)

/-- `GzipCompression` — `compression/gzip.py:8-26`. -/
def gzipCompression (f : Format) : Compression :=
  .custom (pys! "gzip") f.write fun data => gzipMembers f data.length data

/-- `brotli.decompress`: one stream, and nothing after it; otherwise `brotli.error`. -/
def brotliDecompress (f : Format) (data : Bytes) : Except Exc Bytes :=
  match f.scan data with
  | .frame content [] => .ok content
  | _ => .error (.other (.custom 2) (pys! "brotli: decoder failed"))

/-- `BrotliCompression` — `compression/brotli.py:10-28`. -/
def brotliCompression (f : Format) : Compression := .custom (pys! "br") f.write (brotliDecompress f)

/-- `with ZstdDecompressor().stream_reader(data) as reader: return reader.read()` — `compression/zstd.py:27-31`: `read()` returns what can be decoded until the
input ends or the first frame does (`read_across_frames` is false by default); it raises `ZstdError` for what is not a frame. -/
def zstdRead (f : Format) (data : Bytes) : Except Exc Bytes :=
  match f.scan data with
  | .frame content _ => .ok content
  | .incomplete content => .ok content
  | .bad => .error (.other (.custom 3) (pys! "zstd decompress error"))

/-- `ZstdCompression` — `compression/zstd.py:10-31`. -/
def zstdCompression (f : Format) : Compression := .custom (pys! "zstd") f.write (zstdRead f)

end Conn
