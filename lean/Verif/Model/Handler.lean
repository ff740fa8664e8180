import Verif.Model.Auth

/-!
# Handlers, contexts, requests (`handler/handler.go`, `errors/errors.go`)

A handler is an arbitrary state transformer: `σ` is everything a handler can read or
change (database, caches, …), `ρ` the type of responses.
-/

namespace Gofre

/-- A Go map as an association list with unique keys; the order of the list is one possible
iteration order. -/
abbrev Map (α : Type) := List (Str × α)

namespace Map
/-- `m[k]`. -/
def get? {α} (m : Map α) (k : Str) : Option α := List.lookup k m
/-- `m[k] = v`. -/
def set {α} : Map α → Str → α → Map α
  | [], k, v => [(k, v)]
  | (k', v') :: m, k, v => if k' = k then (k, v) :: m else (k', v') :: set m k v
/-- `delete(m, k)`. -/
def erase {α} (m : Map α) (k : Str) : Map α := m.filter (fun p => decide (p.1 ≠ k))
end Map

/-- Error values as far as the framework distinguishes them (`errors/errors.go:5-47`).
`other` stands for any other error, including wrapped ones. -/
inductive Err
  | badRequest (msg : Str)
  | notFound (msg : Str)
  | unauthorized
  | wrongCredentials
  | accessDenied
  | other (msg : Str)
  deriving DecidableEq, Repr

/-- `auth.SecurityPrincipal` (`auth/auth.go:49-58`): only `HasPermission` is used by the
framework. -/
structure Principal where
  hasPermission : Auth.Permission → Bool

/-- An OAuth2 access token (`auth/oauth/oauth2.go`), as an opaque text. -/
abbrev Token := Str

/-- The values the framework stores in `context.Context`
(`auth/auth.go:13`, `middleware/csrf.go:22`, `auth/oauth/oauth2.go:26`). -/
structure Ctx where
  principal : Option Principal := none
  nonce : Option Str := none
  token : Option Token := none

/-- The parts of `*http.Request` (and the matching context) used by the middlewares.
Header keys are in canonical form.  `form` is what the client sent (query string and form
body); `formParsed` says whether `ParseForm` has been called on this request, i.e. whether
`R.Form` is filled in (net/http leaves it nil). -/
structure Req where
  method : Str
  headers : Map (List Str) := []
  form : Map (List Str) := []
  formParsed : Bool := false
  tls : Bool := false
  scheme : Str := []
  host : Str := []
  port : Str := []
  deriving DecidableEq, Repr

/-- `http.Header.Get` / `url.Values.Get` on canonical keys: first value or `""`. -/
def getFirst (m : Map (List Str)) (k : Str) : Str :=
  match Map.get? m k with
  | some (v :: _) => v
  | _ => []

/-- `R.Form.Get(k)`: `R.Form` is nil until the form has been parsed. -/
def Req.formGet (r : Req) (k : Str) : Str := if r.formParsed then getFirst r.form k else []

/-- `R.FormValue(k)`: parses the form if necessary (parse errors are ignored by net/http). -/
def Req.formValue (r : Req) (k : Str) : Str := getFirst r.form k

/-- What a handler call can do: return a response and an error (Go allows any combination),
or panic; `panic none` is `panic(nil)`. -/
inductive HRes (ρ : Type)
  | ret (resp : Option ρ) (err : Option Err)
  | panic (v : Option Str)
  deriving DecidableEq, Repr

/-- `handler.Handler` (`handler/handler.go:11`) with its effects on `σ`. -/
abbrev Handler (σ ρ : Type) := Ctx → Req → σ → HRes ρ × σ

/-- `middleware.Middleware` (`middleware/middleware.go:8`). -/
abbrev Middleware (σ ρ : Type) := Handler σ ρ → Handler σ ρ

end Gofre
