import Verif.Model.Mux
import Verif.Model.Middleware

/-!
# The routes of the example server (`examples/cmd.go:21-147`)
-/

namespace Gofre.Mux

/-- The handlers of the example server: the file server of the assets (`gofre.go:132`), the two
handlers of the login (`gofre.go:198-268`) and those of `examples/cmd.go`. -/
inductive ExRoute
  | assets | index | initiate | authorize | textVar | textStar | textPlain | textHtml | json | download | tmpl | sse | security
  deriving DecidableEq

/-- A number for each handler. -/
def ExRoute.num : ExRoute → Nat
  | .assets => 0 | .index => 1 | .initiate => 2 | .authorize => 3 | .textVar => 4 | .textStar => 5 | .textPlain => 6
  | .textHtml => 7 | .json => 8 | .download => 9 | .tmpl => 10 | .sse => 11 | .security => 12

/-- The calls of `main` (`examples/cmd.go:28-147`) on the mux.  Middlewares are represented by the
identity, as which handler they wrap is all that matters here. -/
def exampleOps : List (Op ExRoute) :=
  [.common 0 [some id, some id], .handle 0 b!"GET" b!"/" .index []] ++
  oauthOps 0 b!"/oauth/initiate" b!"/oauth/authorize" .initiate .authorize [] [] ++
  [.sub 0 b!"/text", .handle 1 b!"GET" b!"/{plain}" .textVar [], .handle 1 b!"GET" b!"/*" .textStar [],
   .handle 1 b!"GET" b!"/plain" .textPlain [], .handle 1 b!"GET" b!"/html" .textHtml [],
   .handle 0 b!"GET" b!"/json/{user}/{id}" .json [], .handle 0 b!"GET" b!"/download" .download [],
   .handle 0 b!"GET" b!"/tmpl/{tmplName}" .tmpl [], .handle 0 b!"GET" b!"/sse" .sse [],
   .handle 0 b!"GET" b!"/security/authorize/{permission}" .security [some id, some id]]

/-- The routes handed to the router, in order; the mux is made with the default configuration and
template support (`examples/cmd.go:24`, `gofre.go:106-108`, `:120-138`). -/
def exampleRoutes : List (Route ExRoute) := (run (World.new [] (some []) fun _ => .assets) exampleOps).routes

/-- The principal of the authorization example (`examples/cmd.go:135-146`): a user with one group
with one role allowing the permission of the path. -/
def exampleUser (p : Auth.Permission) : Auth.User := ⟨[], [⟨[], [⟨[], [p], []⟩]⟩]⟩

/-- The supplier of the principal (`examples/cmd.go:135-146`); `v` is the variable `permission` of
the path.  The texts of the errors are not distinguished. -/
def exampleSupplier {σ : Type} (v : Str) (_ : Ctx) (_ : Req) (s : σ) : Except Err (Option Principal) × σ :=
  match Auth.parsePermission (b!"domain/subdomain/resource:" ++ v) with
  | none => (.error (.other b!"permission parsing failed"), s)
  | some p => (.ok (some ⟨(exampleUser p).hasPermission⟩), s)

/-- The route of the authorization example (`examples/cmd.go:133-147`): the handler and its two
middlewares; `AccessDelete` is `1 << 3` (`auth/auth.go:25-36`). -/
def exampleGuarded {σ ρ : Type} (v : Str) (h : Handler σ ρ) : Handler σ ρ :=
  wrapMiddleware h [some (MW.principalSupplier (exampleSupplier v)), some (MW.authorizeAll [⟨b!"domain/subdomain/resource", 8⟩])]

end Gofre.Mux
