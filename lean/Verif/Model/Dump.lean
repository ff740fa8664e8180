import Verif.Model.Response

/-!
# `RequestDumper` (`middleware/dump.go`)
-/

namespace Gofre.Dump
open Gofre.Response

/-- What the dumper reads of a request (`middleware/dump.go:23-40`).  `form` is `R.Form`: nil (`none`)
until the form is parsed. -/
structure DReq where
  method : Str := b!"GET"
  proto : Str := b!"HTTP/1.1"
  uri : Str := []
  url : Str := []
  remote : Str := []
  transferEncoding : List Str := []
  contentLength : Int := 0
  host : Str := []
  secure : Bool := false
  header : Map (List Str) := []
  form : Option (Map (List Str)) := none
  deriving DecidableEq, Repr

/-- What a handler returns; `ok none` is neither a response nor an error. -/
inductive DOut
  | ok (r : Option Resp)
  | err (e : Err)
  | panic

/-- How a handler call ends: its result, the state, and what the header map and the map that was
`R.Form` at the start of the call contain at the end of it. -/
structure Ended (σ : Type) where
  out : DOut
  state : σ
  header : Map (List Str)
  form : Option (Map (List Str))

/-- A handler. -/
abbrev DHandler (σ : Type) := σ → DReq → Ended σ

/-- The document given to the logger, before it is turned into JSON.  The two times are left out. -/
structure Document where
  request : DReq
  requestCookies : List Str
  status : Int
  responseHeader : Option (Map Str)
  responseCookies : List Str
  deriving DecidableEq, Repr

/-- The response after `Headers` and `Cookies` have been called on it: the maps exist. -/
def touch (r : Resp) : Resp := (r.mapHeaders id).mapCookies id

/-- `RequestDumper` (`middleware/dump.go:17-74`).  `sent` gives the texts of the cookies of a request
(`R.Cookies`, `Cookie.String`).  The header and form maps are put in the document by reference
(`dump.go:32-33`) and turned into text after the handler has run (`dump.go:61`).  `json.Marshal`
does not fail for such documents.  A nil response is dereferenced (`dump.go:51`). -/
def requestDumper {σ : Type} (env : Env) (sent : Map (List Str) → List Str) (log : Document → σ → σ) (h : DHandler σ) : DHandler σ := fun s req =>
  let e := h s req
  match e.out with
  | .panic => e
  | .err x => { e with out := .err x }
  | .ok none => { e with out := .panic }
  | .ok (some r) =>
    let doc : Document :=
      { request := { req with header := e.header, form := e.form }
        requestCookies := sent req.header
        status := r.statusCode
        responseHeader := r.headers
        responseCookies := (env.cookieOrder (r.cookies.getD [])).map fun kv => env.cookieText kv.2 }
    { e with out := .ok (some (touch r)), state := log doc e.state }

end Gofre.Dump
