import Verif.Model.OAuth
import Verif.Model.Handler

/-!
# The values in a request's context

`context.WithValue` and `Value` of Go's `context` as a chain of entries, the keys of the framework
with their Go types, and the functions reading them.
-/

namespace Gofre.Context

/-- The Go type of a key.  `auth.ctxKey` (`auth/auth.go:10`), `oauth.ctxKey`
(`auth/oauth/oauth2.go:23`) and `middleware.csrfCtxKey` (`middleware/csrf.go:18`) are three types;
the others are those of the application and of other packages. -/
inductive KeyType
  | auth
  | oauth
  | csrf
  | app (n : Nat)
  deriving DecidableEq, Repr

/-- A key: keys are equal when type and value are. -/
structure Key where
  type : KeyType
  num : Nat
  deriving DecidableEq, Repr

/-- `SecurityPrincipalCtxKey` (`auth/auth.go:13`). -/
def principalKey : Key := ⟨.auth, 1⟩

/-- `AccessTokenCtxKey` (`auth/oauth/oauth2.go:26`). -/
def tokenKey : Key := ⟨.oauth, 1⟩

/-- `CSRFNonceCtxKey` (`middleware/csrf.go:22`). -/
def nonceKey : Key := ⟨.csrf, 1⟩

/-- A value with its dynamic type: something that is a `SecurityPrincipal`, an `AccessToken`, a
string, anything else. -/
inductive Val
  | principal (p : Principal)
  | token (t : OAuth.AccessToken)
  | text (s : Str)
  | other (n : Nat)

/-- A context: the entries, the last added first. -/
abbrev Chain := List (Key × Val)

/-- `context.WithValue`. -/
def withValue (c : Chain) (k : Key) (v : Val) : Chain := (k, v) :: c

/-- `Value` of a context: the entry added last. -/
def value : Chain → Key → Option Val
  | [], _ => none
  | (k', v) :: c, k => if k' = k then some v else value c k

/-- `GetSecurityPrincipalFromContext` (`auth/auth.go:16-21`). -/
def getPrincipal (c : Chain) : Option Principal :=
  match value c principalKey with
  | some (.principal p) => some p
  | _ => none

/-- `GetAccessTokenFromContext` (`auth/oauth/oauth2.go:29-34`). -/
def getToken (c : Chain) : OAuth.AccessToken :=
  match value c tokenKey with
  | some (.token t) => t
  | _ => { accessToken := [], tokenType := [] }

/-- `AccessToken.IsEmpty` (`auth/oauth/oauth2.go:80-82`). -/
def tokenEmpty (t : OAuth.AccessToken) : Bool := t.accessToken.length == 0

/-- `GetCSRFNonceFromContext` (`middleware/csrf.go:27-32`). -/
def getNonce (c : Chain) : Str :=
  match value c nonceKey with
  | some (.text s) => s
  | _ => []

/-- The user a provider returns (`auth/oauth/github.go:135-139`, `auth/oauth/google.go:164-168`) as
a `SecurityPrincipal` (`auth/auth.go:193-217`): it has no groups. -/
def userPrincipal (u : OAuth.User) : Principal := ⟨(Auth.User.mk u.id []).hasPermission⟩

/-- What is done to the context on the way to a handler. -/
inductive Put
  /-- `SecurityPrincipalSupplier` with what the supplier found (`middleware/auth.go:20-23`). -/
  | supplied (p : Option Principal)
  /-- `CSRFPrevention` (`middleware/csrf.go:65`). -/
  | issued (nonce : Str)
  /-- The callback of the login flow with the token (`gofre.go:256`). -/
  | exchanged (t : OAuth.AccessToken)
  /-- The callback with the user (`gofre.go:263`). -/
  | fetched (u : OAuth.User)
  /-- A middleware of the application with a key of its own type. -/
  | own (type n : Nat) (v : Val)

/-- One of them. -/
def put (c : Chain) : Put → Chain
  | .supplied none => c
  | .supplied (some p) => withValue c principalKey (.principal p)
  | .issued s => withValue c nonceKey (.text s)
  | .exchanged t => withValue c tokenKey (.token t)
  | .fetched u => withValue c principalKey (.principal (userPrincipal u))
  | .own type n v => withValue c ⟨.app type, n⟩ v

/-- All of them, in order. -/
def puts (c : Chain) (l : List Put) : Chain := l.foldl put c

end Gofre.Context
