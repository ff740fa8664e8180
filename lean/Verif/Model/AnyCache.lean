import Verif.Model.Csrf
import Verif.Model.OAuth

/-!
# The CSRF middleware and the login endpoints over any `cache.Cache`
(`middleware/csrf.go:40-69`, `gofre.go:203-268`, `cache/cache.go:5-13`)

`cache.Cache` is an interface.  What an implementation answers is an input here, and what it is asked is recorded: one `Call` per method call, in
the order of the calls of one request.
-/

namespace Gofre.AnyCache
variable {σ ρ : Type}

/-- A call of a method of `cache.Cache` with the time, the arguments and the answer (`cache/cache.go:6-13`). -/
inductive Call
  | contains (now : Int) (k : Str) (ans : Bool)
  | remove (k : Str)
  | add (now : Int) (k : Str) (d : Int) (err : Option Err)
  deriving DecidableEq

/-- What a request gets from outside: clocks and randomness as in `Csrf.Env`, what `Contains` says and what `Add` returns. -/
structure Env where
  tCheck : Int
  tAdd : Int
  rnd : Option (List UInt8)
  says : Bool
  addErr : Option Err

/-- Second half of the middleware (`middleware/csrf.go:58-66`); `calls` are those made before. -/
def issue (env : Env) (handler : Handler σ ρ) (ctx : Ctx) (req : Req) (calls : List Call) (s : σ) : HRes ρ × List Call × σ :=
  match env.rnd with
  | none => (.ret none (some (.other b!"failed to generate nonce")), calls, s)
  | some bytes =>
    let nonce := Csrf.hex bytes
    let calls := calls ++ [.add env.tAdd nonce Csrf.expiration env.addErr]
    match env.addErr with
    | some e => (.ret none (some e), calls, s)
    | none =>
      let (res, s') := handler { ctx with nonce := some nonce } req s
      (res, calls, s')

/-- `CSRFPreventionWithCustomParamAndHeaderName` (`middleware/csrf.go:40-69`): the result, the calls and the new state. -/
def csrf (param header : Str) (env : Env) (handler : Handler σ ρ) (ctx : Ctx) (req : Req) (s : σ) : HRes ρ × List Call × σ :=
  if Csrf.skipCheck req.method then issue env handler ctx req [] s
  else
    let n := Csrf.previousNonce param header req
    if n = [] then (.ret none (some .accessDenied), [], s)
    else if !env.says then (.ret none (some .accessDenied), [.contains env.tCheck n false], s)
    else issue env handler ctx req [.contains env.tCheck n true, .remove n] s

/-- Initiate handler with a cache (`gofre.go:207-230`): the address of the redirect or an error, and the calls. -/
def initiate (cfg : OAuth.Config σ) (base : Str) (now : Int) (addErr : Option Err) (state : Str) (req : Req) : Except Err Str × List Call :=
  match OAuth.selectProvider cfg req with
  | .error e => (.error e, [])
  | .ok p =>
    let calls := [.add now state cfg.keyExpiration addErr]
    match addErr with
    | some _ => (.error (.other b!"failed to save the OAUTH2 state random value"), calls)
    | none => (.ok (p.initiateUrl (OAuth.redirectUrl cfg base p) state cfg.fetchUserDetails), calls)

/-- Callback handler with a cache (`gofre.go:233-267`); once `Contains` has said yes it goes on as without a cache. -/
def callback (cfg : OAuth.Config σ) (base : Str) (now : Int) (says : Bool) (providerName : Str) (handler : OAuth.OHandler σ ρ) (req : Req) (s : σ) :
    HRes ρ × List Call × σ :=
  match OAuth.byName cfg.providers providerName with
  | none => (.ret none (some (.badRequest b!"oauth provider not supported")), [], s)
  | some _ =>
    if req.formValue b!"error" ≠ [] then (.ret none (some .unauthorized), [], s)
    else if !says then (.ret none (some .unauthorized), [.contains now (req.formValue b!"state") false], s)
    else
      let r := OAuth.callback cfg base now providerName handler {} req none s
      (r.1, [.contains now (req.formValue b!"state") true], r.2)

/-- The in-memory cache answering calls (`cache/cache.go:24-36`): the cache afterwards, `none` if an answer is not the one it gives. -/
def serve : Cache.Cache → List Call → Option Cache.Cache
  | c, [] => some c
  | c, .contains now k ans :: l => if Cache.contains c now k = ans then serve c l else none
  | c, .remove k :: l => serve (Cache.remove c k) l
  | c, .add now k d err :: l => if err = none then serve (Cache.add c now k d) l else none

end Gofre.AnyCache
