import Verif.Model.Mux
import Verif.Model.Stack
import Verif.Model.Csrf

/-!
# A whole application: from the calls on the mux to the answer on the connection
(`gofre.go:270-338`, `router/router.go:44-104`)
-/

namespace Gofre.Mux
variable {H : Type}

/-- `HandleGet` (`gofre.go:271-273`). -/
def handleGet (v : Nat) (path : Str) (h : H) (ms : List (Option (H → H))) : Op H := .handle v b!"GET" path h ms
/-- `HandlePost` (`gofre.go:276-278`). -/
def handlePost (v : Nat) (path : Str) (h : H) (ms : List (Option (H → H))) : Op H := .handle v b!"POST" path h ms
/-- `HandlePut` (`gofre.go:281-283`). -/
def handlePut (v : Nat) (path : Str) (h : H) (ms : List (Option (H → H))) : Op H := .handle v b!"PUT" path h ms
/-- `HandlePatch` (`gofre.go:286-288`). -/
def handlePatch (v : Nat) (path : Str) (h : H) (ms : List (Option (H → H))) : Op H := .handle v b!"PATCH" path h ms
/-- `HandleDelete` (`gofre.go:291-293`). -/
def handleDelete (v : Nat) (path : Str) (h : H) (ms : List (Option (H → H))) : Op H := .handle v b!"DELETE" path h ms

end Gofre.Mux

namespace Gofre.App
open Gofre.Path Gofre.Http Gofre.Response Gofre.Serve Gofre.Stack
variable {σ : Type} {c : Codec}

/-- A handler as it is given to the router: besides context and request it gets `PathVar` of the
matching context (`router/path/matching_context.go:53-89`; `none` = calling it panics). -/
abbrev AHandler (σ : Type) := (Str → Option Str) → Handler σ MResp

/-- A middleware that does not look at the path variables. -/
def lift (m : Middleware σ MResp) : AHandler σ → AHandler σ := fun h vars => m (h vars)

/-- The calls of `Router.Handle` (`router/router.go:46-62`) in order; the `i`-th route gets the
number `i`.  `none`: one of them panics or does not return, so that the application does not start. -/
def load {H : Type} (x : Ext) (other : Str → Str) : Router → Nat → List (Mux.Route H) → Option Router
  | r, _, [] => some r
  | r, i, e :: es =>
    match handle x other sortSiblings r e.method e.path i with
    | .returned r' => load x other r' (i + 1) es
    | .panicked _ => none
    | .hangs => none

/-- A request: what middlewares and handlers see, its path (`req.URL.Path`) and the protocol. -/
structure AReq where
  req : Req
  path : Str
  protoMajor : Nat := 2

/-- What the responses see of it. -/
def AReq.out (q : AReq) : RReq := ⟨q.req.method, q.protoMajor, getFirst q.req.headers b!"Accept-Encoding"⟩

/-- `MuxHandler.ServeHTTP` (`gofre.go:336-338`), that is `Router.ServeHTTP`
(`router/router.go:66-104`), with the handlers of the application: the connection and the state
afterwards. -/
def serveApp (x : Ext) (other : Str → Str) (env : Env) (r : Router) (hs : List (AHandler σ)) (q : AReq) (buf : List USeg) (fuel : Nat) (s : σ) :
    Option (WRes c × σ) :=
  match parseURLPath q.path buf with
  | none => some (.panic {}, s)
  | some segs =>
    match r.matchers (toUpper other q.req.method) with
    | none => some (bare 404, s)
    | some m =>
      (matchM (matchUrl x r.ci q.path) m segs fuel).map fun
        | .panic => (.panic {}, s)
        | .none => (bare 404, s)
        | .found p labels =>
          match hs[p.attachment]? with
          | none => (.panic {}, s)
          | some h =>
            let (res, s') := h (pathVarText q.path p labels segs) {} q.req s
            (deliver env q.out res, s')

/-- What an application with the CSRF middleware keeps: the clock readings and random bytes the
request at hand will see, the cache of the middleware, everything else. -/
structure CsrfState (σ : Type) where
  env : Csrf.Env
  cache : Cache.Cache
  rest : σ

/-- Second half of the middleware (`middleware/csrf.go:58-66`), as `Csrf.issue`, the handler being given
the cache it may use itself. -/
def csrfIssue {ρ : Type} (h : Handler (CsrfState σ) ρ) : Handler (CsrfState σ) ρ := fun ctx req w =>
  match w.env.rnd with
  | none => (.ret none (some (.other b!"failed to generate nonce")), w)
  | some bytes => h { ctx with nonce := some (Csrf.hex bytes) } req { w with cache := Cache.add w.cache w.env.tAdd (Csrf.hex bytes) Csrf.expiration }

/-- `CSRFPreventionWithCustomParamAndHeaderName` (`middleware/csrf.go:40-69`) as a middleware of an
application, as `Csrf.csrf`.  Two of them around one handler see the same clock readings and random bytes. -/
def csrfIn {ρ : Type} (param header : Str) : Middleware (CsrfState σ) ρ := fun h ctx req w =>
  if Csrf.skipCheck req.method then csrfIssue h ctx req w
  else
    let n := Csrf.previousNonce param header req
    if n = [] || !Cache.contains w.cache w.env.tCheck n then (.ret none (some .accessDenied), w)
    else csrfIssue h ctx req { w with cache := Cache.remove w.cache n }

/-- Requests served one after the other, each with its clock readings and random bytes; `none` when the fuel of one of them is
not enough. -/
def serveAll (x : Ext) (other : Str → Str) (env : Env) (r : Router) (hs : List (AHandler (CsrfState σ))) (buf : List USeg) (fuel : Nat) :
    List (AReq × Csrf.Env) → CsrfState σ → Option (List (WRes c) × CsrfState σ)
  | [], w => some ([], w)
  | (q, e) :: qs, w =>
    match serveApp (c := c) x other env r hs q buf fuel { w with env := e } with
    | none => none
    | some (res, w') => (serveAll x other env r hs buf fuel qs w').map fun (l, w'') => (res :: l, w'')

end Gofre.App
