import Verif.Model.Http
import Verif.Model.Text

/-!
# Responses (`response/*.go`)
-/

namespace Gofre.Response
open Gofre.Http

variable {c : Codec}

/-- `http.Cookie`: the fields that identify it and the rest. -/
structure Cookie where
  name : Str
  value : Str := []
  path : Str := []
  domain : Str := []
  rest : Str := []
  deriving DecidableEq, Repr

/-- The key of a cookie (`response/response.go:62`). -/
def cookieKey (k : Cookie) : Str := k.name ++ 58 :: (k.path ++ 58 :: k.domain)

/-- `HttpCookies.Add` (`response/response.go:58-66`); `none` stands for a nil pointer. -/
def addCookies (m : Map Cookie) : List (Option Cookie) → Map Cookie
  | [] => m
  | none :: l => addCookies m l
  | some k :: l => addCookies (m.set (cookieKey k) k) l

/-- Library functions and run-time choices that are not modelled: `Cookie.String` (empty for an
invalid name), the order in which the two maps are iterated, and what `http.Redirect` makes of a
URL as location and as text. -/
structure Env where
  cookieText : Cookie → Str
  headerOrder : Map Str → Map Str
  cookieOrder : Map Cookie → Map Cookie
  location : Str → Str
  redirectBody : Int → Str → Str

/-- The parts of the request the responses look at. -/
structure RReq where
  method : Str := b!"GET"
  protoMajor : Nat := 2
  acceptEncoding : Str := []

/-- `HttpHeadersResponse` (`response/headers.go:10-15`). -/
structure HeadResp where
  status : Int := 0
  contentType : Str := []
  headers : Option (Map Str) := none
  cookies : Option (Map Cookie) := none

/-- `StatusCode` (`response/headers.go:17-22`). -/
def HeadResp.statusCode (r : HeadResp) : Int := if r.status = 0 then 200 else r.status

/-- How a `Write` ends: it returns (`ok`: a nil error), panics, or never returns. -/
inductive WRes (c : Codec)
  | ret (ok : Bool) (w : Wr c)
  | panic (w : Wr c)
  | blocked (w : Wr c)

/-- The writer afterwards. -/
def WRes.w : WRes c → Wr c
  | .ret _ w => w
  | .panic w => w
  | .blocked w => w

/-- `http.SetCookie`. -/
def setCookie (env : Env) (h : Header) (k : Cookie) : Header :=
  if env.cookieText k = [] then h else h.add b!"Set-Cookie" (env.cookieText k)

/-- The loop over the cookies (`response/headers.go:54-58`, `response/adaptor.go:35-39`). -/
def cookieHeaders (env : Env) (cookies : Option (Map Cookie)) (h : Header) : Header :=
  match cookies with
  | none => h
  | some m => (env.cookieOrder m).foldl (fun h kv => setCookie env h kv.2) h

/-- The loop over the headers (`response/headers.go:63-67`, `response/adaptor.go:43-47`). -/
def customHeaders (env : Env) (headers : Option (Map Str)) (h : Header) : Header :=
  match headers with
  | none => h
  | some m => (env.headerOrder m).foldl (fun h kv => h.set kv.1 kv.2) h

/-- The default headers (`response/headers.go:69-74`). -/
def defaultHeaders (contentType : Str) (h : Header) : Header :=
  let h := if h.get b!"Content-Type" = [] ∧ contentType ≠ [] then h.set b!"Content-Type" contentType else h
  if h.get b!"X-Content-Type-Options" = [] then h.set b!"X-Content-Type-Options" b!"nosniff" else h

/-- `HttpHeadersResponse.Write` (`response/headers.go:38-79`).  Giving the maps back to their pools
is modelled in `Verif.Model.Pool`. -/
def headWrite (env : Env) (r : HeadResp) (w : Wr c) : WRes c :=
  if r.statusCode < 100 ∨ r.statusCode > 999 then .ret false w
  else
    let w := w.setHeader (defaultHeaders r.contentType (customHeaders env r.headers (cookieHeaders env r.cookies w.base.header)))
    match w.writeHeader r.statusCode with
    | none => .panic w
    | some w => .ret true w

/-- `writeTextResponse` (`response/response.go:105-120`).  Both ways of writing have the same effect.  Not
modelled: a payload of more than 0x7fff0000 bytes panics when the writer has no `WriteString` (under compression). -/
def writeText (w : Wr c) (payload : Str) : Bool × Wr c := if payload = [] then (true, w) else w.write payload

/-- The writes of a raw writer function, a copied stream or a template, which stop at the first
failed write, and whether an error follows. -/
structure Chunks where
  chunks : List Str
  err : Bool := false

/-- Writing them. -/
def writeChunks : List Str → Wr c → Bool × Wr c
  | [], w => (true, w)
  | b :: bs, w =>
    match w.write b with
    | (true, w) => writeChunks bs w
    | (false, w) => (false, w)

/-- The whole sequence. -/
def runChunks (k : Chunks) (w : Wr c) : WRes c :=
  match writeChunks k.chunks w with
  | (true, w) => .ret (!k.err) w
  | (false, w) => .ret false w

/-- What an adapted `http.Handler` does with the writer. -/
inductive Op
  | set (k v : Str)
  | add (k v : Str)
  | writeHeader (code : Int)
  | write (b : Str)
  | flush

/-- The operations of the handler one after the other. -/
def runOps : List Op → Wr c → WRes c
  | [], w => .ret true w
  | .set k v :: l, w => runOps l (w.setHeader (w.base.header.set k v))
  | .add k v :: l, w => runOps l (w.setHeader (w.base.header.add k v))
  | .writeHeader code :: l, w =>
    match w.writeHeader code with
    | none => .panic w
    | some w => runOps l w
  | .write b :: l, w => runOps l (w.write b).2
  | .flush :: l, w => runOps l w.flush

/-- `ServerSentEvent` (`response/sse.go:19-28`). -/
structure Event where
  name : Str := []
  id : Str := []
  data : List Str := []
  retry : Int := 0
  deriving DecidableEq, Repr

/-- The loop over the data lines (`response/sse.go:38-46`). -/
def dataText : Bool → List Str → Str
  | _, [] => []
  | false, d :: l => b!"data: " ++ d ++ dataText true l
  | true, d :: l => b!"\ndata: " ++ d ++ dataText true l

/-- `ServerSentEvent.String` (`response/sse.go:30-59`). -/
def eventText (e : Event) : Str :=
  let s := (if e.name ≠ [] then b!"event: " ++ e.name else []) ++ dataText (decide (e.name ≠ [])) e.data ++
    (if e.id ≠ [] then b!"\nid: " ++ e.id else []) ++ (if e.retry > 0 then b!"\nretry: " ++ itoaInt e.retry else [])
  if s = [] then [] else s ++ b!"\n\n"

/-- What the channel of a generator delivers: events, each with whether the request has been
cancelled by the time it is received, and whether the channel is closed after them (otherwise the
receiver waits for ever). -/
structure Feed where
  events : List (Event × Bool)
  closes : Bool := true

/-- The loop over the events (`response/sse.go:91-101`). -/
def eventLoop (closes : Bool) : List (Event × Bool) → Wr c → WRes c
  | [], w => if closes then .ret true w else .blocked w
  | (_, true) :: _, w => .ret true w
  | (e, false) :: l, w =>
    match writeText w (eventText e) with
    | (false, w) => .ret true w
    | (true, w) => eventLoop closes l w.flush

/-- The deferred flush (`response/sse.go:85`, `:106-110`); every writer of the model can flush. -/
def WRes.thenFlush : WRes c → WRes c
  | .ret ok w => .ret ok w.flush
  | .panic w => .panic w.flush
  | .blocked w => .blocked w

/-- The deferred `Close` of the compressing writer (`response/compress.go:59,70`). -/
def WRes.thenClose : WRes c → WRes c
  | .ret ok w => .ret ok w.close
  | .panic w => .panic w.close
  | .blocked w => .blocked w

/-- `then`. -/
def WRes.andThen (r : WRes c) (f : Wr c → WRes c) : WRes c :=
  match r with
  | .ret true w => f w
  | r => r

/-- `getCompressionAlgorithmFromHeaderValue` (`response/compress.go:76-91`). -/
def algFor (accept : Str) : Option Alg :=
  let encs := (splitOn 44 (toLower accept)).map trimSpace
  if encs.any fun e => e == b!"gzip" || e == b!"compress" then some .gzip
  else if encs.any fun e => e == b!"deflate" then some .deflate
  else none

/-- The name of an algorithm. -/
def algName : Alg → Str
  | .gzip => b!"gzip"
  | .deflate => b!"deflate"

/-- The kinds of response.  `none` as the body of `raw` and `stream` is a nil function or reader,
that of `template` a nil template; `json (some none)` is a payload that cannot be marshalled, and
`json none` a nil payload. -/
inductive Resp
  | plain (h : HeadResp)
  | text (h : HeadResp) (payload : Str)
  | json (h : HeadResp) (payload : Option (Option Str))
  | raw (h : HeadResp) (body : Option Chunks)
  | stream (h : HeadResp) (body : Option Chunks)
  | template (h : HeadResp) (body : Option Chunks)
  | redirect (h : HeadResp) (url : Str)
  | adaptor (headers : Option (Map Str)) (cookies : Option (Map Cookie)) (ops : List Op)
  | hijack
  | sse (h : HeadResp) (feed : Feed)
  | compress (level : Int) (inner : Resp)

/-- `NewHttpCompressResponse` (`response/compress.go:24-32`); `none` = error. -/
def newCompress (inner : Resp) (level : Int) : Option Resp :=
  if level < -1 ∨ level > 9 then none else some (.compress level inner)

/-- `StatusCode` of each kind (`response/headers.go:17-22`, `response/adaptor.go:15-17`,
`response/hijack.go:23-25`, `response/compress.go:34-36`). -/
def Resp.statusCode : Resp → Int
  | .plain h => h.statusCode
  | .text h _ => h.statusCode
  | .json h _ => h.statusCode
  | .raw h _ => h.statusCode
  | .stream h _ => h.statusCode
  | .template h _ => h.statusCode
  | .redirect h _ => h.statusCode
  | .adaptor _ _ _ => 0
  | .hijack => 0
  | .sse h _ => h.statusCode
  | .compress _ r => r.statusCode

/-- `Headers` of each kind (`response/headers.go:24-29`, `response/adaptor.go:19-24`,
`response/hijack.go:27-29`, `response/compress.go:38-40`): the map, created if necessary (`none` is
a nil map).  The new map is empty, see C58. -/
def Resp.headers : Resp → Option (Map Str)
  | .plain h => some (h.headers.getD [])
  | .text h _ => some (h.headers.getD [])
  | .json h _ => some (h.headers.getD [])
  | .raw h _ => some (h.headers.getD [])
  | .stream h _ => some (h.headers.getD [])
  | .template h _ => some (h.headers.getD [])
  | .redirect h _ => some (h.headers.getD [])
  | .adaptor hs _ _ => some (hs.getD [])
  | .hijack => none
  | .sse h _ => some (h.headers.getD [])
  | .compress _ r => r.headers

/-- `Cookies` of each kind (`response/headers.go:31-36`, `response/adaptor.go:26-31`,
`response/hijack.go:31-33`, `response/compress.go:42-44`). -/
def Resp.cookies : Resp → Option (Map Cookie)
  | .plain h => some (h.cookies.getD [])
  | .text h _ => some (h.cookies.getD [])
  | .json h _ => some (h.cookies.getD [])
  | .raw h _ => some (h.cookies.getD [])
  | .stream h _ => some (h.cookies.getD [])
  | .template h _ => some (h.cookies.getD [])
  | .redirect h _ => some (h.cookies.getD [])
  | .adaptor _ ks _ => some (ks.getD [])
  | .hijack => none
  | .sse h _ => some (h.cookies.getD [])
  | .compress _ r => r.cookies

/-- The response after its header map has been replaced by `f` of what `Headers()` returns. -/
def Resp.mapHeaders (f : Map Str → Map Str) : Resp → Resp
  | .plain h => .plain { h with headers := some (f (h.headers.getD [])) }
  | .text h p => .text { h with headers := some (f (h.headers.getD [])) } p
  | .json h p => .json { h with headers := some (f (h.headers.getD [])) } p
  | .raw h p => .raw { h with headers := some (f (h.headers.getD [])) } p
  | .stream h p => .stream { h with headers := some (f (h.headers.getD [])) } p
  | .template h p => .template { h with headers := some (f (h.headers.getD [])) } p
  | .redirect h p => .redirect { h with headers := some (f (h.headers.getD [])) } p
  | .adaptor hs ks ops => .adaptor (some (f (hs.getD []))) ks ops
  | .hijack => .hijack
  | .sse h p => .sse { h with headers := some (f (h.headers.getD [])) } p
  | .compress l r => .compress l (r.mapHeaders f)

/-- The same for the cookies. -/
def Resp.mapCookies (f : Map Cookie → Map Cookie) : Resp → Resp
  | .plain h => .plain { h with cookies := some (f (h.cookies.getD [])) }
  | .text h p => .text { h with cookies := some (f (h.cookies.getD [])) } p
  | .json h p => .json { h with cookies := some (f (h.cookies.getD [])) } p
  | .raw h p => .raw { h with cookies := some (f (h.cookies.getD [])) } p
  | .stream h p => .stream { h with cookies := some (f (h.cookies.getD [])) } p
  | .template h p => .template { h with cookies := some (f (h.cookies.getD [])) } p
  | .redirect h p => .redirect { h with cookies := some (f (h.cookies.getD [])) } p
  | .adaptor hs ks ops => .adaptor hs (some (f (ks.getD []))) ops
  | .hijack => .hijack
  | .sse h p => .sse { h with cookies := some (f (h.cookies.getD [])) } p
  | .compress l r => .compress l (r.mapCookies f)

/-- `http.Redirect`, the part used by `response/redirect.go:14-17`. -/
def redirectWrite (env : Env) (req : RReq) (url : Str) (status : Int) (w : Wr c) : WRes c :=
  let had := decide (w.base.header b!"Content-Type" ≠ [])
  let h := w.base.header.set b!"Location" (env.location url)
  let h := if !had && (req.method == b!"GET" || req.method == b!"HEAD") then h.set b!"Content-Type" b!"text/html; charset=utf-8" else h
  let w := w.setHeader h
  match w.writeHeader status with
  | none => .panic w
  | some w => if !had && req.method == b!"GET" then .ret true (w.write (env.redirectBody status url)).2 else .ret true w

/-- The header map after `delete(r.Headers(), "Accept-Encoding")` (`response/compress.go:53,64`), if that is done. -/
def without (drop : Bool) (hs : Option (Map Str)) : Option (Map Str) := if drop then hs.map (Map.erase · b!"Accept-Encoding") else hs

/-- The same for the common part of a response. -/
def HeadResp.without (drop : Bool) (h : HeadResp) : HeadResp := { h with headers := Response.without drop h.headers }

/-- `Write` of each kind: `response/headers.go:38-79`, `text.go:14-22`, `json.go:22-44`, `raw.go:19-30`,
`streaming.go:17-28`, `template.go:39-49`, `redirect.go:14-17`, `adaptor.go:33-51`, `hijack.go:35-42`,
`sse.go:70-104`, `compress.go:46-74`.  `drop`: a compressing response around this one has removed
`Accept-Encoding` from its headers.  `WriteString` and `Write` are not distinguished.  Callbacks (the
raw writer function, the event generator, the hijack callback) are assumed not to be nil, unless the kind has an option for it, and not
to write on after a failed write. -/
def Resp.writeWith (env : Env) (req : RReq) (drop : Bool) : Resp → Wr c → WRes c
  | .plain h, w => headWrite env (h.without drop) w
  | .text h p, w => (headWrite env (h.without drop) w).andThen fun w => .ret (writeText w p).1 (writeText w p).2
  | .json h p, w => (headWrite env (h.without drop) w).andThen fun w =>
    match p.getD (some b!"{}") with
    | none => .ret false w
    | some b => .ret (w.write b).1 (w.write b).2
  | .raw h k, w => (headWrite env (h.without drop) w).andThen fun w =>
    match k with
    | none => .ret true w
    | some k => runChunks k w
  | .stream h k, w => (headWrite env (h.without drop) w).andThen fun w =>
    match k with
    | none => .ret true w
    | some k => runChunks k w
  | .template h k, w => (headWrite env (h.without drop) w).andThen fun w =>
    match k with
    | none => .panic w
    | some k => runChunks k w
  | .redirect h url, w => redirectWrite env req url h.status w
  | .adaptor hs ks ops, w => runOps ops (w.setHeader (customHeaders env (Response.without drop hs) (cookieHeaders env ks w.base.header)))
  | .hijack, w => .ret true (if w.layers.isEmpty && w.base.canHijack then { w with base := w.base.hijack } else w)
  | .sse h feed, w =>
    if req.protoMajor ≠ 2 then
      match w.writeHeader 500 with
      | none => .panic w
      | some w => .ret false w
    else (headWrite env (h.without drop) w).andThen fun w =>
      let w := w.setHeader ((w.base.header.set b!"Cache-Control" b!"no-cache").set b!"Connection" b!"keep-alive")
      (eventLoop feed.closes feed.events w).thenFlush
  | .compress level r, w =>
    match algFor req.acceptEncoding with
    | none => r.writeWith env req drop w
    | some a =>
      let w := w.setHeader (w.base.header.set b!"Content-Encoding" (algName a))
      (r.writeWith env req true { w with layers := ⟨c.start a level, false⟩ :: w.layers }).thenClose

/-- `Write` of a response that is not wrapped. -/
def Resp.write (env : Env) (req : RReq) (r : Resp) (w : Wr c) : WRes c := r.writeWith env req false w

/-- `strings.ToUpper` of a text of one byte: a byte that is not ASCII is not valid UTF-8 and becomes
the replacement character. -/
def upperOne (b : UInt8) : Str := if b < 128 then [upperByte b] else [0xef, 0xbf, 0xbd]

/-- `errorToString` (`response/json.go:110-116`) of an error with this message. -/
def errorText : Str → Str
  | [] => []
  | b :: l => upperOne b ++ l

end Gofre.Response
