import Verif.Model.Csrf
import Verif.Model.OAuth

/-!
# One cache or two for nonces and login states (`middleware/csrf.go:35-69`, `gofre.go:194-268`)

`CSRFPrevention` and `oauth.CacheConfig` both take a `cache.Cache`; nothing keeps an application from giving both the same one.
Requests are processed one at a time.  The application's own state is `σ`.
-/

namespace Gofre.Purpose
open Gofre.Cache
variable {σ ρ : Type}

/-- A request to an endpoint behind the CSRF middleware, or one to the two login endpoints (which are not behind it). -/
inductive Ev
  | page (req : Req) (env : Csrf.Env)
  | login (e : OAuth.Ev)
  deriving DecidableEq, Repr

/-- An application: names of the CSRF parameter and header, the guarded handler, the login configuration and its handler. -/
structure App (σ ρ : Type) where
  param : Str
  header : Str
  handler : Handler σ ρ
  cfg : OAuth.Config σ
  base : Str
  onLogin : OAuth.OHandler σ ρ

/-- One request when both were given the same cache: a page (`middleware/csrf.go:42-67`), the start of a login (`gofre.go:207-230`), a callback
(`gofre.go:233-267`, which only reads the cache). -/
def stepOne (a : App σ ρ) (w : Cache × σ) : Ev → Cache × σ
  | .page req env => (Csrf.csrf a.param a.header env a.handler {} req w.1 w.2).2
  | .login (.initiate now st req) => (((OAuth.initiate a.cfg a.base now st req (some w.1)).2).getD w.1, w.2)
  | .login (.callback now n req) => (w.1, (OAuth.callback a.cfg a.base now n a.onLogin {} req (some w.1) w.2).2)

/-- A history with one cache (`middleware/csrf.go:35`, `gofre.go:203`). -/
def runOne (a : App σ ρ) (evs : List Ev) (w : Cache × σ) : Cache × σ := evs.foldl (stepOne a) w

/-- The nonces, the login states, and the application's own state, when each got a cache of its own. -/
structure Apart (σ : Type) where
  nonces : Cache
  states : Cache
  own : σ

/-- One request with a cache each (`middleware/csrf.go:42-67`, `gofre.go:207-267`). -/
def stepApart (a : App σ ρ) (w : Apart σ) : Ev → Apart σ
  | .page req env =>
    let r := Csrf.csrf a.param a.header env a.handler {} req w.nonces w.own
    { w with nonces := r.2.1, own := r.2.2 }
  | .login (.initiate now st req) => { w with states := ((OAuth.initiate a.cfg a.base now st req (some w.states)).2).getD w.states }
  | .login (.callback now n req) => { w with own := (OAuth.callback a.cfg a.base now n a.onLogin {} req (some w.states) w.own).2 }

/-- A history with a cache each (`middleware/csrf.go:35`, `gofre.go:203`). -/
def runApart (a : App σ ρ) (evs : List Ev) (w : Apart σ) : Apart σ := evs.foldl (stepApart a) w

end Gofre.Purpose
