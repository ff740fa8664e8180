import Verif.Spec.Account

/-! # What a provider's reply says about a token -/

namespace Gofre.Spec
open Gofre.OAuth

/-- What stands between the scopes in a reply: a comma at GitHub, a space at Google (RFC 6749, 3.3). -/
def between : Kind → UInt8
  | .github => 44
  | .google => 32

/-- The words with the separator between them. -/
def spelled (sep : UInt8) : List Str → Str
  | [] => []
  | [w] => w
  | w :: ws => w ++ sep :: spelled sep ws

/-- Names of scopes: not empty, without the separator. -/
def ScopeNames (sep : UInt8) (ws : List Str) : Prop := ∀ w ∈ ws, w ≠ [] ∧ sep ∉ w

/-- The token has what the reply says: token and type; the scopes listed, if any; refresh token and lifetime, if any. -/
structure Reports (k : Kind) (body : Map Json) (t : AccessToken) : Prop where
  token : Holds body b!"access_token" (some t.accessToken)
  type : Holds body b!"token_type" (some t.tokenType)
  scopes : (Holds body b!"scope" none ∧ t.scopes = []) ∨
    (Holds body b!"scope" (some (spelled (between k) t.scopes)) ∧ ScopeNames (between k) t.scopes)
  refresh : (Holds body b!"refresh_token" none ∧ t.refreshToken = []) ∨ Holds body b!"refresh_token" (some t.refreshToken)
  expires : ((∀ n, Map.get? body b!"expires_in" ≠ some (.num n)) ∧ t.expiresInSeconds = 0) ∨ Map.get? body b!"expires_in" = some (.num t.expiresInSeconds)

end Gofre.Spec
