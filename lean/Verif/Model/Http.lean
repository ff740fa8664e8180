import Verif.Model.Handler

/-!
# The response writer of net/http, as far as the responses use it

`net/http` is not part of the repository; this is the trusted description of the library that the
response models are built on.
-/

namespace Gofre.Http

/-- `http.Header`: the values of each (canonical) key, `[]` if absent. -/
abbrev Header := Str → List Str

/-- Bytes allowed in a header field name (RFC 9110 `token`). -/
def isToken (c : UInt8) : Bool :=
  (48 ≤ c && c ≤ 57) || (65 ≤ c && c ≤ 90) || (97 ≤ c && c ≤ 122) || b!"!#$%&'*+-.^_`|~".contains c

/-- The letter conversion of `textproto.CanonicalMIMEHeaderKey`. -/
def canonBytes : Bool → Str → Str
  | _, [] => []
  | up, c :: l => (if up then upperByte c else lowerByte c) :: canonBytes (c == 45) l

/-- `textproto.CanonicalMIMEHeaderKey`. -/
def canonicalKey (k : Str) : Str := if k.all isToken then canonBytes true k else k

namespace Header
/-- `Header.Set`. -/
def set (h : Header) (k v : Str) : Header := fun k' => if k' = canonicalKey k then [v] else h k'
/-- `Header.Add`. -/
def add (h : Header) (k v : Str) : Header := fun k' => if k' = canonicalKey k then h k' ++ [v] else h k'
/-- `Header.Get`. -/
def get (h : Header) (k : Str) : Str := (h (canonicalKey k)).head?.getD []
end Header

/-- What reaches the connection. -/
inductive Ev
  /-- An informational (1xx) status line with headers. -/
  | info (code : Nat) (h : Header)
  /-- The status line and the header block. -/
  | head (code : Nat) (h : Header)
  | data (b : Str)
  | flush
  /-- The connection was handed over. -/
  | hijack

/-- A response writer.  `status` is the committed status; `plan i` says how many bytes of the `i`-th
write are accepted before the connection fails (`none`: all of them).  Headers the server adds by
itself (Date, Content-Length, a sniffed Content-Type) are left out, and so is the error a write gets
when it exceeds a Content-Length the handler declared. -/
structure W where
  header : Header := fun _ => []
  status : Option Nat := none
  out : List Ev := []
  writes : Nat := 0
  plan : Nat → Option Nat := fun _ => none
  canHijack : Bool := true

namespace W

/-- Whether a status admits a body (`bodyAllowedForStatus`). -/
def bodyAllowed (code : Nat) : Bool := !(code < 200 || code == 204 || code == 304)

/-- `ResponseWriter.WriteHeader`: a second call is ignored, an invalid code panics (`none`), a 1xx
code other than 101 is sent as an informational response; otherwise the header block is fixed.
(This is HTTP/1; over HTTP/2 the code 101 is informational too.) -/
def writeHeader (w : W) (code : Int) : Option W :=
  if w.status.isSome then some w
  else if code < 100 ∨ code > 999 then none
  else if code ≤ 199 ∧ code ≠ 101 then some { w with out := w.out ++ [.info code.toNat w.header] }
  else some { w with status := some code.toNat, out := w.out ++ [.head code.toNat w.header] }

/-- The implicit `WriteHeader(200)`. -/
def commit (w : W) : W :=
  if w.status.isSome then w else { w with status := some 200, out := w.out ++ [.head 200 w.header] }

/-- `ResponseWriter.Write`: `true` if no error is returned. -/
def write (w : W) (b : Str) : Bool × W :=
  let w := w.commit
  if b = [] then (true, w)
  else if !bodyAllowed (w.status.getD 200) then (false, w)
  else
    match w.plan w.writes with
    | none => (true, { w with writes := w.writes + 1, out := w.out ++ [.data b] })
    | some k => (false, { w with writes := w.writes + 1, out := w.out ++ [.data (b.take k)] })

/-- `Flusher.Flush`. -/
def flush (w : W) : W :=
  let w := w.commit
  { w with out := w.out ++ [.flush] }

/-- `Hijacker.Hijack`, when supported. -/
def hijack (w : W) : W := { w with out := w.out ++ [.hijack] }

end W

/-- The compression algorithms. -/
inductive Alg
  | gzip | deflate
  deriving DecidableEq, Repr

/-- `compress/gzip` and `compress/flate`: a state and the bytes sent on. -/
structure Codec where
  σ : Type
  start : Alg → Int → σ
  write : σ → Str → σ × Str
  flush : σ → σ × Str
  close : σ → σ × Str

variable {c : Codec}

/-- A compressing writer around another writer; after a failed write it refuses everything. -/
structure Layer (c : Codec) where
  st : c.σ
  failed : Bool := false

/-- `compressResponseWriter`s (`response/compress.go:98-101`) around a response writer, outermost
first. -/
structure Wr (c : Codec) where
  base : W := {}
  layers : List (Layer c) := []

/-- `Write` through the layers (`response/compress.go:107-109`).  Simplified: what a layer sends on
is sent in one call of the layer below. -/
def pushBytes : List (Layer c) → W → Str → Bool × List (Layer c) × W
  | [], w, b => ((w.write b).1, [], (w.write b).2)
  | l :: ls, w, b =>
    if l.failed then (false, l :: ls, w)
    else
      let r := c.write l.st b
      if r.2 = [] then (true, { l with st := r.1 } :: ls, w)
      else
        let below := pushBytes ls w r.2
        (below.1, ⟨r.1, !below.1⟩ :: below.2.1, below.2.2)

namespace Wr

/-- `Write`. -/
def write (w : Wr c) (b : Str) : Bool × Wr c :=
  let r := pushBytes w.layers w.base b
  (r.1, ⟨r.2.2, r.2.1⟩)

/-- `Header` for modification (`response/compress.go:103-105`). -/
def setHeader (w : Wr c) (h : Header) : Wr c := { w with base := { w.base with header := h } }

/-- `WriteHeader` (`response/compress.go:111-113`). -/
def writeHeader (w : Wr c) (code : Int) : Option (Wr c) := (w.base.writeHeader code).map fun b => { w with base := b }

/-- `Flush` (`response/compress.go:115-117`): a compressing writer only passes on what it holds. -/
def flush (w : Wr c) : Wr c :=
  match w.layers with
  | [] => { w with base := w.base.flush }
  | l :: ls =>
    if l.failed then w
    else
      let r := c.flush l.st
      if r.2 = [] then { w with layers := { l with st := r.1 } :: ls }
      else
        let below := pushBytes ls w.base r.2
        ⟨below.2.2, ⟨r.1, !below.1⟩ :: below.2.1⟩

/-- Closing the outermost compressing writer and going back to the one below. -/
def close (w : Wr c) : Wr c :=
  match w.layers with
  | [] => w
  | l :: ls =>
    if l.failed then { w with layers := ls }
    else
      let r := c.close l.st
      if r.2 = [] then { w with layers := ls }
      else
        let below := pushBytes ls w.base r.2
        ⟨below.2.2, below.2.1⟩

end Wr

end Gofre.Http
