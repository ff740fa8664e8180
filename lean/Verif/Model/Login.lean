import Verif.Model.App
import Verif.Model.Context

/-!
# The two handlers of the login flow as routes of an application (`gofre.go:198-268`)
-/

namespace Gofre.App
open Gofre.Path Gofre.Http Gofre.Response Gofre.Serve Gofre.Stack
variable {σ : Type}

/-- What an application with a login flow keeps: the clock reading and the random state text the request at hand will see
(`gofre.go:222`), the state cache of the configuration, which is not nil, and everything else. -/
structure LoginState (σ : Type) where
  now : Int
  rnd : Str
  cache : Cache.Cache
  rest : σ

/-- The initiate handler (`gofre.go:207-230`), as `OAuth.initiate`; `base` is `m.resolvePath(authorizeBasePath)`. -/
def initiateIn (cfg : OAuth.Config σ) (base : Str) : AHandler (LoginState σ) := fun _ _ req w =>
  match OAuth.initiate cfg base w.now w.rnd req (some w.cache) with
  | (.error e, c) => (.ret none (some e), { w with cache := c.getD w.cache })
  | (.ok url, c) => (.ret (some (.resp (Build.redirectFound url))) none, { w with cache := c.getD w.cache })

/-- The context the user's handler gets (`gofre.go:256,263`). -/
def loginCtx (ctx : Ctx) (o : OAuth.OCtx) : Ctx :=
  { ctx with
    token := match o.token with
      | some t => some t.accessToken
      | none => ctx.token
    principal := match o.user with
      | some u => some (Context.userPrincipal u)
      | none => ctx.principal }

/-- The callback handler (`gofre.go:233-267`), as `OAuth.callback`, which is run up to the call of the user's handler. -/
def callbackIn (cfg : OAuth.Config σ) (base : Str) (h : AHandler (LoginState σ)) : AHandler (LoginState σ) := fun vars ctx req w =>
  match vars b!"providerName" with
  | none => (.panic none, w)
  | some name =>
    match OAuth.callback cfg base w.now name (fun o _ s => (.ret (some o) none, s)) {} req (some w.cache) w.rest with
    | (.ret (some o) none, s) => h vars (loginCtx ctx o) req { w with rest := s }
    | (.ret _ e, s) => (.ret none e, { w with rest := s })
    | (.panic v, s) => (.panic v, { w with rest := s })

/-- `HandleOAUTH2WithCustomPaths` (`gofre.go:198-268`) on a mux with the given path prefix. -/
def loginOps (cfg : OAuth.Config σ) (v : Nat) (pathPrefix initiatePath basePath : Str) (h : AHandler (LoginState σ))
    (ims cms : List (Option (AHandler (LoginState σ) → AHandler (LoginState σ)))) : List (Mux.Op (AHandler (LoginState σ))) :=
  Mux.oauthOps v initiatePath basePath (initiateIn cfg (Mux.resolvePath pathPrefix basePath)) (callbackIn cfg (Mux.resolvePath pathPrefix basePath) h) ims cms

/-- `HandleOAUTH2` (`gofre.go:193-195`). -/
def documentedLogin (cfg : OAuth.Config σ) (v : Nat) (pathPrefix : Str) (h : AHandler (LoginState σ))
    (ims cms : List (Option (AHandler (LoginState σ) → AHandler (LoginState σ)))) : List (Mux.Op (AHandler (LoginState σ))) :=
  loginOps cfg v pathPrefix b!"/oauth/initiate" b!"/oauth/authorize" h ims cms

/-- Requests served one after the other, each with its clock reading and random state text; `none` when the fuel of one of them is
not enough. -/
def serveLogins {c : Codec} (x : Ext) (other : Str → Str) (env : Env) (r : Router) (hs : List (AHandler (LoginState σ))) (buf : List USeg) (fuel : Nat) :
    List (AReq × Int × Str) → LoginState σ → Option (List (WRes c) × LoginState σ)
  | [], w => some ([], w)
  | (q, t, rnd) :: qs, w =>
    match serveApp (c := c) x other env r hs q buf fuel { w with now := t, rnd := rnd } with
    | none => none
    | some (res, w') => (serveLogins x other env r hs buf fuel qs w').map fun (l, w'') => (res :: l, w'')

end Gofre.App
