import Verif.Model.OAuth

/-!
# Requests to OAuth2 providers (`auth/oauth/github.go`, `auth/oauth/google.go`)

The address a browser is sent to and the request that exchanges the code, down to the bytes of
the query.  `url.Values.Encode` and `url.QueryEscape` of Go's `net/url` are written out; the JSON
text Google gets is kept as the object that is marshalled.
-/

namespace Gofre.OAuth

/-- Bytes `url.QueryEscape` leaves alone (`shouldEscape` of `net/url` with
`encodeQueryComponent`). -/
def unreserved (c : UInt8) : Bool :=
  (97 ≤ c && c ≤ 122) || (65 ≤ c && c ≤ 90) || (48 ≤ c && c ≤ 57) || c == 45 || c == 95 || c == 46 || c == 126

/-- `"0123456789ABCDEF"[n]`. -/
def upperHex (n : UInt8) : UInt8 := if n < 10 then 48 + n else 55 + n

/-- `url.QueryEscape`. -/
def queryEscape : Str → Str
  | [] => []
  | c :: l =>
    if unreserved c then c :: queryEscape l
    else if c = 32 then 43 :: queryEscape l
    else 37 :: upperHex (c >>> 4) :: upperHex (c &&& 15) :: queryEscape l

/-- Order of Go strings: bytewise. -/
def strLe : Str → Str → Bool
  | [], _ => true
  | _ :: _, [] => false
  | a :: l, b :: m => if a = b then strLe l m else decide (a < b)

/-- One `key=value`. -/
def encodePair (kv : Str × Str) : Str := queryEscape kv.1 ++ 61 :: queryEscape kv.2

/-- Put a pair in its place among pairs sorted by key. -/
def insertKey (kv : Str × Str) : Map Str → Map Str
  | [] => [kv]
  | e :: l => if strLe kv.1 e.1 then kv :: e :: l else e :: insertKey kv l

/-- Pairs in the order of their keys (`sort.Strings` in `url.Values.Encode`). -/
def sortKeys (m : Map Str) : Map Str := m.foldr insertKey []

/-- `url.Values.Encode` when every key has one value: pairs in the order of the keys, joined
with `&`. -/
def encodeValues (m : Map Str) : Str :=
  joinWith 38 ((sortKeys m).map encodePair)

/-- `GitHubAuthorizeEndpoint`, `GoogleAuthorizeEndpoint` (`github.go:14`, `google.go:15`). -/
def authorizeEndpoint : Kind → Str
  | .github => b!"https://github.com/login/oauth/authorize"
  | .google => b!"https://accounts.google.com/o/oauth2/v2/auth"

/-- `GitHubAccessTokenEndpoint`, `GoogleAccessTokenEndpoint` (`github.go:15`, `google.go:16`). -/
def tokenEndpoint : Kind → Str
  | .github => b!"https://github.com/login/oauth/access_token"
  | .google => b!"https://oauth2.googleapis.com/token"

/-- `GitHubUserInfoEndpoint`, `GoogleUserInfoEndpoint` (`github.go:16`, `google.go:17`). -/
def userEndpoint : Kind → Str
  | .github => b!"https://api.github.com/user"
  | .google => b!"https://www.googleapis.com/oauth2/v1/userinfo"

/-- `GitHubProvider.InitiateUrl` (`github.go:42-60`). -/
def GitHub.initiateUrl (p : GitHub) (redirectUri state : Str) (includeProfile : Bool) : Str :=
  authorizeEndpoint .github ++ 63 :: encodeValues (p.params redirectUri state includeProfile)

/-- `GoogleProvider.InitiateUrl` (`google.go:48-73`). -/
def Google.initiateUrl (p : Google) (redirectUri state : Str) (includeProfile : Bool) : Str :=
  authorizeEndpoint .google ++ 63 :: encodeValues (p.params redirectUri state includeProfile)

/-- Body of an outgoing request: bytes, or the object given to `json.Marshal`. -/
inductive OutBody
  | none
  | bytes (s : Str)
  | json (m : Map Str)
  deriving DecidableEq, Repr

/-- An outgoing request as handed to `HttpClient.Do`. -/
structure OutReq where
  method : Str
  url : Str
  headers : Map Str
  body : OutBody
  deriving DecidableEq, Repr

/-- Request of `GitHubProvider.FetchAccessToken` (`github.go:62-73`); the redirect address is not
used. -/
def GitHub.tokenRequest (p : GitHub) (secret : Str) (_redirectUri code : Str) : OutReq where
  method := b!"POST"
  url := tokenEndpoint .github
  headers := [(b!"Accept", b!"application/json")]
  body := .bytes (encodeValues [(b!"client_id", p.clientId), (b!"client_secret", secret), (b!"code", code)])

/-- Request of `GoogleProvider.FetchAccessToken` (`google.go:75-94`). -/
def Google.tokenRequest (p : Google) (secret : Str) (redirectUri code : Str) : OutReq where
  method := b!"POST"
  url := tokenEndpoint .google
  headers := [(b!"Content-Type", b!"application/json"), (b!"Accept", b!"application/json")]
  body := .json [(b!"client_id", p.clientId), (b!"client_secret", secret), (b!"code", code), (b!"grant_type", b!"authorization_code"), (b!"redirect_uri", redirectUri)]

/-- Request of `FetchAuthenticatedUser` (`github.go:104-112`, `google.go:133-141`). -/
def userRequest (k : Kind) (t : AccessToken) : OutReq where
  method := b!"GET"
  url := userEndpoint k
  headers := [(b!"Authorization", b!"Bearer " ++ t.accessToken), (b!"Accept", b!"application/json")]
  body := .none

/-! ## Providers on a network -/

/-- Everything sent so far, newest last, and the rest of the world. -/
structure Net (σ : Type) where
  sent : List OutReq
  rest : σ

/-- `HttpClient.Do` followed by the JSON decoder: the request goes out and some reply comes back. -/
def Net.exchange {σ : Type} (answer : OutReq → σ → Reply × σ) (r : OutReq) (n : Net σ) : Reply × Net σ :=
  ((answer r n.rest).1, ⟨n.sent ++ [r], (answer r n.rest).2⟩)

/-- `GitHubProvider` as a `Provider` (`github.go:38-142`). -/
def GitHub.provider {σ : Type} (g : GitHub) (secret : Str) (answer : OutReq → σ → Reply × σ) : Provider (Net σ) where
  name := b!"github"
  initiateUrl := g.initiateUrl
  fetchToken redirect code n :=
    let (rep, n') := n.exchange answer (g.tokenRequest secret redirect code)
    (fetchAccessToken .github rep, n')
  fetchUser tok n :=
    let (rep, n') := n.exchange answer (userRequest .github tok)
    (fetchAuthenticatedUser .github rep, n')

/-- `GoogleProvider` as a `Provider` (`google.go:44-171`). -/
def Google.provider {σ : Type} (g : Google) (secret : Str) (answer : OutReq → σ → Reply × σ) : Provider (Net σ) where
  name := b!"google"
  initiateUrl := g.initiateUrl
  fetchToken redirect code n :=
    let (rep, n') := n.exchange answer (g.tokenRequest secret redirect code)
    (fetchAccessToken .google rep, n')
  fetchUser tok n :=
    let (rep, n') := n.exchange answer (userRequest .google tok)
    (fetchAuthenticatedUser .google rep, n')

/-- A provider as the application configures it, with its client secret. -/
inductive App
  | github (g : GitHub) (secret : Str)
  | google (g : Google) (secret : Str)

/-- Which provider it is. -/
def App.kind : App → Kind
  | .github .. => .github
  | .google .. => .google

/-- Its secret. -/
def App.secret : App → Str
  | .github _ s => s
  | .google _ s => s

/-- Its token request. -/
def App.tokenRequest : App → Str → Str → OutReq
  | .github g s => g.tokenRequest s
  | .google g s => g.tokenRequest s

/-- The value put in `Config.Providers`. -/
def App.provider {σ : Type} (answer : OutReq → σ → Reply × σ) : App → Provider (Net σ)
  | .github g s => g.provider s answer
  | .google g s => g.provider s answer

end Gofre.OAuth
