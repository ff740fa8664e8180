import Verif.Model.OAuth

/-!
# What the other side reads

Reading `application/x-www-form-urlencoded` text as the URL standard says: split at `&`, drop
empty pieces, split each piece at its first `=`, turn `+` into a space, then percent-decode.
-/

namespace Gofre.Spec

/-- Value of a hexadecimal digit, either case. -/
def hexVal (c : UInt8) : Option UInt8 :=
  if 48 ≤ c ∧ c ≤ 57 then some (c - 48)
  else if 65 ≤ c ∧ c ≤ 70 then some (c - 55)
  else if 97 ≤ c ∧ c ≤ 102 then some (c - 87)
  else none

/-- `+` to space and percent-decoding; a `%` without two digits stays. -/
def formDecode : Str → Str
  | [] => []
  | 37 :: a :: b :: l =>
    match hexVal a, hexVal b with
    | some x, some y => (x * 16 + y) :: formDecode l
    | _, _ => 37 :: formDecode (a :: b :: l)
  | c :: l => (if c = 43 then 32 else c) :: formDecode l

/-- Text before and after the first `=`. -/
def cutEq : Str → Str × Str
  | [] => ([], [])
  | c :: l => if c = 61 then ([], l) else (c :: (cutEq l).1, (cutEq l).2)

/-- The pairs of a form. -/
def formPairs (s : Str) : List (Str × Str) :=
  ((splitOn 38 s).filter (· ≠ [])).map fun p => (formDecode (cutEq p).1, formDecode (cutEq p).2)

/-- The query of an address: what follows the first `?`, up to `#`. -/
def queryOf (url : Str) : Str := ((url.dropWhile (· ≠ 63)).drop 1).takeWhile (· ≠ 35)

/-- What precedes the query. -/
def beforeQuery (url : Str) : Str := url.takeWhile (· ≠ 63)

/-- The scopes that give access to the profile of a user, as the providers document them. -/
def profileOf : OAuth.Kind → List Str
  | .github => [b!"user"]
  | .google => [b!"openid", b!"https://www.googleapis.com/auth/userinfo.email", b!"https://www.googleapis.com/auth/userinfo.profile"]

/-- Where the providers ask their users for the authorisation. -/
def authorizeAt : OAuth.Kind → Str
  | .github => b!"https://github.com/login/oauth/authorize"
  | .google => b!"https://accounts.google.com/o/oauth2/v2/auth"

/-- A truth value in words. -/
def word : Bool → Str
  | true => b!"true"
  | false => b!"false"

/-- A parameter that is there under a condition. -/
def onlyIf (k v : Str) : Bool → List (Str × Str)
  | true => [(k, v)]
  | false => []

/-- What GitHub is told: client, state, redirect address, whether users may sign up, and as far as configured the account and the scopes. -/
def toldGitHub (p : OAuth.GitHub) (redirect state : Str) (profile : Bool) : List (Str × Str) :=
  onlyIf b!"login" p.login (p.login ≠ []) ++
  onlyIf b!"scope" (joinWith 32 (p.scopes ++ (if profile then profileOf .github else []))) (p.scopes ≠ []) ++
  [(b!"allow_signup", word p.allowSignup), (b!"client_id", p.clientId), (b!"redirect_uri", redirect), (b!"state", state)]

/-- What Google is told: that a code is wanted, client, state, redirect address, scopes, whether those granted before count, and as far as
configured the access while the user is away, the account and the prompts. -/
def toldGoogle (p : OAuth.Google) (redirect state : Str) (profile : Bool) : List (Str × Str) :=
  onlyIf b!"access_type" b!"offline" p.accessTypeOffline ++
  onlyIf b!"login_hint" p.loginHint (p.loginHint ≠ []) ++
  onlyIf b!"prompt" (joinWith 32 p.prompts) (p.prompts ≠ []) ++
  [(b!"client_id", p.clientId), (b!"include_granted_scopes", word p.includeGrantedScopes), (b!"redirect_uri", redirect),
    (b!"response_type", b!"code"), (b!"scope", joinWith 32 (p.scopes ++ (if profile then profileOf .google else []))), (b!"state", state)]

end Gofre.Spec
