import Verif.Model.Query
import Verif.Spec.Query

/-! # How the providers that come with the framework are known (`gofre.go:189-190`) -/

namespace Gofre.Spec

/-- The name of a provider in the addresses of the login flow. -/
def knownAs : OAuth.Kind → Str
  | .github => b!"github"
  | .google => b!"google"

/-- What the provider is told when a login starts. -/
def told : OAuth.App → Str → Str → Bool → List (Str × Str)
  | .github g _ => toldGitHub g
  | .google g _ => toldGoogle g

/-- Where the code of a callback may be redeemed. -/
def redeemedAt : OAuth.Kind → Str
  | .github => b!"https://github.com/login/oauth/access_token"
  | .google => b!"https://oauth2.googleapis.com/token"

end Gofre.Spec
