import Verif.Model.Cache
import Verif.Model.Mux

/-!
# OAuth2 flow (`gofre.go:193-268`) and providers (`auth/oauth/*.go`)

Provider calls go over the network; their outcome is an arbitrary function of the arguments
and the outside state `σ`.  The state cache is the in-memory cache or nil.
-/

namespace Gofre.OAuth
open Gofre.Cache

/-- Result of a provider call. -/
inductive POut (α : Type)
  | ok (a : α)
  | err (e : Err)
  | panic
  deriving DecidableEq, Repr

/-- `oauth.AccessToken` (`auth/oauth/oauth2.go:67-78`). -/
structure AccessToken where
  accessToken : Str
  tokenType : Str
  scopes : List Str := []
  refreshToken : Str := []
  expiresInSeconds : Int := 0
  deriving DecidableEq, Repr

/-- `auth.User` as filled in by providers (`auth/oauth/github.go:135-139`). -/
structure User where
  id : Str
  name : Str
  platform : Str
  deriving DecidableEq, Repr

/-- What the callback puts in the context (`gofre.go:256,263`). -/
structure OCtx where
  token : Option AccessToken := none
  user : Option User := none
  deriving DecidableEq, Repr

/-- `oauth.Provider` (`auth/oauth/oauth2.go:85-98`). -/
structure Provider (σ : Type) where
  name : Str
  initiateUrl : Str → Str → Bool → Str
  fetchToken : Str → Str → σ → POut AccessToken × σ
  fetchUser : AccessToken → σ → POut User × σ

/-- `oauth.Config` (`auth/oauth/oauth2.go:37-54`); the cache itself is passed separately. -/
structure Config (σ : Type) where
  websiteUrl : Str
  fetchUserDetails : Bool
  providers : List (Provider σ)
  keyExpiration : Int

/-- `GetProviderByName` (`auth/oauth/oauth2.go:57-64`). -/
def byName {σ} : List (Provider σ) → Str → Option (Provider σ)
  | [], _ => none
  | p :: ps, n => if n = p.name then some p else byName ps n

/-- A user handler behind the callback. -/
abbrev OHandler (σ ρ : Type) := OCtx → Req → σ → HRes ρ × σ

section
variable {σ ρ : Type}

/-- Provider selection of the initiate handler (`gofre.go:208-220`). -/
def selectProvider (cfg : Config σ) (req : Req) : Except Err (Provider σ) :=
  match cfg.providers with
  | [p] => .ok p
  | ps =>
    let n := req.formValue b!"provider"
    if n = [] then .error (.badRequest b!"oauth provider not specified")
    else match byName ps n with
      | some p => .ok p
      | none => .error (.badRequest b!"oauth provider not supported")

/-- Redirect URL (`gofre.go:221,240`); `base` is `m.resolvePath(authorizationFlowBasePath)`. -/
def redirectUrl (cfg : Config σ) (base : Str) (p : Provider σ) : Str :=
  cfg.websiteUrl ++ base ++ slash :: p.name

/-- Pattern of the callback (`gofre.go:233`), registered with `HandleGet` on a mux with the given
path prefix. -/
def callbackPattern (pathPrefix base : Str) : Str := Mux.resolvePath pathPrefix (base ++ b!"/{providerName}")

/-- Initiate handler (`gofre.go:207-230`) at time `now` with the random `state`; the response is
a redirect to the returned URL. -/
def initiate (cfg : Config σ) (base : Str) (now : Int) (state : Str) (req : Req)
    (c : Option Cache) : Except Err Str × Option Cache :=
  match selectProvider cfg req with
  | .error e => (.error e, c)
  | .ok p =>
    (.ok (p.initiateUrl (redirectUrl cfg base p) state cfg.fetchUserDetails),
      c.map fun c => add c now state cfg.keyExpiration)

/-- Callback handler (`gofre.go:233-267`) at time `now`; `providerName` is the path variable. -/
def callback (cfg : Config σ) (base : Str) (now : Int) (providerName : Str) (handler : OHandler σ ρ)
    (ctx : OCtx) (req : Req) (c : Option Cache) (s : σ) : HRes ρ × σ :=
  match byName cfg.providers providerName with
  | none => (.ret none (some (.badRequest b!"oauth provider not supported")), s)
  | some p =>
    if req.formValue b!"error" ≠ [] then (.ret none (some .unauthorized), s)
    else if (match c with
        | some c => !contains c now (req.formValue b!"state")
        | none => false) = true then (.ret none (some .unauthorized), s)
    else match p.fetchToken (redirectUrl cfg base p) (req.formValue b!"code") s with
      | (.err e, s') => (.ret none (some e), s')
      | (.panic, s') => (.panic (some b!"interface conversion"), s')
      | (.ok tok, s') =>
        let ctx := { ctx with token := some tok }
        if cfg.fetchUserDetails then
          match p.fetchUser tok s' with
          | (.err e, s'') => (.ret none (some e), s'')
          | (.panic, s'') => (.panic (some b!"interface conversion"), s'')
          | (.ok u, s'') => handler { ctx with user := some u } req s''
        else handler ctx req s'

/-- Requests to the two endpoints. -/
inductive Ev
  | initiate (now : Int) (state : Str) (req : Req)
  | callback (now : Int) (providerName : Str) (req : Req)
  deriving DecidableEq, Repr

/-- A history of requests. -/
def run (cfg : Config σ) (base : Str) (handler : OHandler σ ρ) :
    List Ev → Option Cache × σ → Option Cache × σ
  | [], w => w
  | .initiate now st req :: evs, (c, s) =>
    run cfg base handler evs ((initiate cfg base now st req c).2, s)
  | .callback now n req :: evs, (c, s) =>
    run cfg base handler evs (c, (callback cfg base now n handler {} req c s).2)

end

/-! ## Providers -/

/-- Decoded JSON values as far as the providers look at them; `num` carries the value
truncated to an integer (`int(expiresIn)`). -/
inductive Json
  | str (s : Str)
  | num (truncated : Int)
  | bool (b : Bool)
  | other
  deriving DecidableEq, Repr

/-- What `HttpClient.Do` and the JSON decoder yield: a failure, or a status and an object. -/
inductive Reply
  | failed
  | undecodable
  | reply (status : Nat) (body : Map Json)
  deriving DecidableEq, Repr

/-- `x.(string)` with the comma-ok form. -/
def asString : Option Json → Option Str
  | some (.str s) => some s
  | _ => none

/-- The two providers. -/
inductive Kind
  | github | google
  deriving DecidableEq, Repr

/-- `strings.Split(scope, sep)`: GitHub uses a comma (`github.go:92`), Google a space
(`google.go:119`). -/
def Kind.sep : Kind → UInt8
  | .github => 44
  | .google => 32

/-- `FetchAccessToken` from the reply on (`github.go:72-101`, `google.go:94-131`).  The
unchecked type assertions panic when the value is missing or not a string.  Error texts are
not modelled. -/
def fetchAccessToken (k : Kind) : Reply → POut AccessToken
  | .failed => .err (.other b!"failed to fetch")
  | .undecodable => .err (.other b!"failed to decode")
  | .reply status body =>
    if status / 100 = 2 then
      match asString (Map.get? body b!"access_token") with
      | none => .panic
      | some tok =>
        match asString (Map.get? body b!"token_type") with
        | none => .panic
        | some tt =>
          let scopes := match asString (Map.get? body b!"scope") with
            | some sc => splitOn k.sep sc
            | none => []
          match k with
          | .github => .ok { accessToken := tok, tokenType := tt, scopes := scopes }
          | .google => .ok {
              accessToken := tok, tokenType := tt, scopes := scopes
              refreshToken := (asString (Map.get? body b!"refresh_token")).getD []
              expiresInSeconds := match Map.get? body b!"expires_in" with
                | some (.num n) => n
                | _ => 0 }
    else .err (.other b!"returned")

/-- `FetchAuthenticatedUser` from the reply on (`github.go:112-142`, `google.go:141-171`). -/
def fetchAuthenticatedUser (k : Kind) : Reply → POut User
  | .failed => .err (.other b!"failed to fetch")
  | .undecodable => .err (.other b!"failed to decode")
  | .reply status body =>
    if status / 100 = 2 then
      let platform := match k with | .github => b!"github" | .google => b!"google"
      let name := (asString (Map.get? body b!"name")).getD []
      match asString (Map.get? body b!"email") with
      | some email => .ok ⟨email, name, platform⟩
      | none =>
        match asString (Map.get? body (match k with | .github => b!"login" | .google => b!"id")) with
        | some id => .ok ⟨id, name, platform⟩
        | none => .panic
    else .err (.other b!"returned")

/-- `GitHubUserInfoProfileScopes` (`github.go:17`) and `GoogleUserInfoScopes` (`google.go:18`). -/
def profileScopes : Kind → List Str
  | .github => [b!"user"]
  | .google => [b!"openid", b!"https://www.googleapis.com/auth/userinfo.email",
      b!"https://www.googleapis.com/auth/userinfo.profile"]

/-- `GitHubProvider` (`github.go:21-36`). -/
structure GitHub where
  clientId : Str
  login : Str
  allowSignup : Bool
  scopes : List Str

/-- `GoogleProvider` (`google.go:21-42`). -/
structure Google where
  clientId : Str
  scopes : List Str
  accessTypeOffline : Bool
  includeGrantedScopes : Bool
  loginHint : Str
  prompts : List Str

/-- `strconv.FormatBool`. -/
def formatBool (b : Bool) : Str := if b then b!"true" else b!"false"

/-- Query parameters of `GitHubProvider.InitiateUrl` (`github.go:42-60`), before URL encoding. -/
def GitHub.params (p : GitHub) (redirectUri state : Str) (includeProfile : Bool) : Map Str :=
  let scopes := if includeProfile then p.scopes ++ profileScopes .github else p.scopes
  [(b!"client_id", p.clientId), (b!"state", state), (b!"allow_signup", formatBool p.allowSignup),
    (b!"redirect_uri", redirectUri)] ++
  (if p.login ≠ [] then [(b!"login", p.login)] else []) ++
  (if p.scopes.length > 0 then [(b!"scope", joinWith 32 scopes)] else [])

/-- Query parameters of `GoogleProvider.InitiateUrl` (`google.go:48-73`), before URL encoding. -/
def Google.params (p : Google) (redirectUri state : Str) (includeProfile : Bool) : Map Str :=
  let scopes := if includeProfile then p.scopes ++ profileScopes .google else p.scopes
  [(b!"client_id", p.clientId), (b!"redirect_uri", redirectUri), (b!"response_type", b!"code"),
    (b!"scope", joinWith 32 scopes), (b!"state", state),
    (b!"include_granted_scopes", formatBool p.includeGrantedScopes)] ++
  (if p.accessTypeOffline then [(b!"access_type", b!"offline")] else []) ++
  (if p.loginHint ≠ [] then [(b!"login_hint", p.loginHint)] else []) ++
  (if p.prompts.length > 0 then [(b!"prompt", joinWith 32 p.prompts)] else [])

/-! ## Slices

`scopes := p.Scopes; scopes = append(scopes, …)` (`github.go:43-46`, `google.go:49-53`): with
spare capacity `append` writes into the array that `p.Scopes` is a window of. -/

/-- A slice: a window of length `len` at the start of a backing array of size `arr.length`. -/
structure Slice where
  arr : List Str
  len : Nat
  deriving DecidableEq, Repr

/-- Elements of the slice. -/
def Slice.elems (s : Slice) : List Str := s.arr.take s.len

/-- `append(s, xs...)`: the new slice, and what the old backing array holds afterwards. -/
def Slice.append (s : Slice) (xs : List Str) : Slice × List Str :=
  if s.len + xs.length ≤ s.arr.length then
    let arr := s.arr.take s.len ++ xs ++ s.arr.drop (s.len + xs.length)
    (⟨arr, s.len + xs.length⟩, arr)
  else (⟨s.elems ++ xs, s.len + xs.length⟩, s.arr)

/-! ## Random states -/

/-- `randLetters` (`gofre.go:354`). -/
def randLetters : Str := b!"abcdefghijklmnopqrstuvwxyz1234567890"

/-- `generateUniqueId` (`gofre.go:358-364`); `rs` are the values of the calls to
`rand.Int63()`, one per byte.  `none` is an index out of range. -/
def generateUniqueId : List Nat → Option Str
  | [] => some []
  | r :: rs =>
    match randLetters[r % randLetters.length]?, generateUniqueId rs with
    | some b, some t => some (b :: t)
    | _, _ => none

end Gofre.OAuth
