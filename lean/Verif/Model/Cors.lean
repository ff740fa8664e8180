import Verif.Model.Handler
import Verif.Model.Text

/-!
# CORS and security-header middlewares (`middleware/cors.go`, `middleware/security.go`)
-/

namespace Gofre

/-- A response as the header middlewares see it: its header map and the rest, which they do
not touch.  `headers = none` stands for a response whose `Headers()` is nil
(`response/hijack.go:27-29`); writing to a nil map panics. -/
structure RespH (α : Type) where
  headers : Option (Map Str)
  rest : α
  deriving DecidableEq, Repr

namespace Cors

/-- Library functions that are not modelled: `strings.EqualFold`, and the scheme found by
`url.ParseRequestURI` (`none` when parsing fails). -/
structure Ext where
  eqFold : Str → Str → Bool
  uriScheme : Str → Option Str

/-- `CorsConfig` (`middleware/cors.go:34-49`). -/
structure Config where
  anyOriginAllowed : Bool := false
  supportsCredentials : Bool := false
  preflightMaxAgeSeconds : Int := 0
  exposedHeaders : List Str := []
  allowedHttpMethods : List Str := []
  allowedHttpHeaders : List Str := []
  allowedOrigins : List Str := []

/-- `containsAllowedMethod` (`middleware/cors.go:51-58`). -/
def allowedMethod (x : Ext) (c : Config) (m : Str) : Bool := c.allowedHttpMethods.any fun a => x.eqFold a m

/-- `containsAllowedHeaderCaseInsensitive` (`middleware/cors.go:60-67`). -/
def allowedHeader (x : Ext) (c : Config) (h : Str) : Bool := c.allowedHttpHeaders.any fun a => x.eqFold a h

/-- `isOriginAllowed` and `containsAllowedOrigin` (`middleware/cors.go:69-76,233-240`). -/
def originAllowed (c : Config) (o : Str) : Bool :=
  if c.anyOriginAllowed then true else c.allowedOrigins.any fun a => a == o

/-- `corsRequestType` (`middleware/cors.go:78-86`). -/
inductive Kind
  | simple | actual | preFlight | notCors | invalid
  deriving DecidableEq, Repr

/-- `isValidOrigin` (`middleware/cors.go:282-296`). -/
def isValidOrigin (x : Ext) (o : Str) : Bool :=
  if o = [] || o.contains 37 then false
  else if o == b!"null" || b!"file://".isPrefixOf o then true
  else match x.uriScheme o with
    | none => false
    | some s => s ≠ []

/-- `isSameOrigin` (`middleware/cors.go:298-330`). -/
def isSameOrigin (r : Req) (o : Str) : Bool :=
  if r.scheme = [] || r.host = [] then false
  else
    let scheme := toLower r.scheme
    let base := scheme ++ b!"://" ++ r.host
    let port := if r.port = [] then
        (if scheme == b!"https" || scheme == b!"wss" then b!"443" else b!"80")
      else r.port
    if base.length = o.length then
      if ((scheme == b!"http" || scheme == b!"ws") && port != b!"80") ||
         ((scheme == b!"https" || scheme == b!"wss") && port != b!"443") then false
      else base == o
    else base ++ b!":" ++ port == o

/-- `getMediaType` (`middleware/cors.go:332-343`); `IndexRune` and slicing are a split. -/
def mediaType (ct : Str) : Str :=
  if ct = [] then ct else trimSpace ((splitOn 59 (toLower ct)).headD [])

/-- `getRequestType` (`middleware/cors.go:242-280`). -/
def requestType (x : Ext) (r : Req) : Kind :=
  match Map.get? r.headers b!"Origin" with
  | none => .notCors
  | some _ =>
    let origin := getFirst r.headers b!"Origin"
    if !isValidOrigin x origin then .invalid
    else if isSameOrigin r origin then .notCors
    else if r.method == b!"GET" || r.method == b!"HEAD" then .simple
    else if r.method == b!"OPTIONS" then
      match Map.get? r.headers b!"Access-Control-Request-Method" with
      | some _ =>
        if getFirst r.headers b!"Access-Control-Request-Method" = [] then .invalid else .preFlight
      | none => .actual
    else if r.method == b!"POST" then
      let mt := mediaType (getFirst r.headers b!"Content-Type")
      if mt ≠ [] then
        if mt == b!"text/plain" || mt == b!"multipart/form-data" || mt == b!"application/x-www-form-urlencoded"
        then .simple else .actual
      else .invalid
    else .actual

/-- The members already listed (`middleware/cors.go:205-210`). -/
def listed (h : Map Str) : List Str :=
  match Map.get? h b!"Vary" with
  | some vh => if vh.length > 0 then (splitOn 44 vh).map trimSpace else []
  | none => []

/-- `addVaryHeader` (`middleware/cors.go:204-231`). -/
def addVary (h : Map Str) (name : Str) : Map Str :=
  if name = b!"*" || (listed h).length = 0 then Map.set h b!"Vary" name
  else if (listed h).length = 1 && trimSpace ((listed h).headD []) == b!"*" then h
  else if (listed h).any (fun v => trimSpace v == b!"*") then Map.set h b!"Vary" b!"*"
  else Map.set h b!"Vary" (joinWith 44 (listed h ++ [name]))

/-- `Set` under a condition. -/
def setWhen (b : Bool) (h : Map Str) (k v : Str) : Map Str := if b then Map.set h k v else h

/-- First part of `addStandardCorsHeaders` (`middleware/cors.go:168-176`). -/
def addOrigin (c : Config) (r : Req) (h : Map Str) : Map Str :=
  if c.anyOriginAllowed then Map.set h b!"Access-Control-Allow-Origin" b!"*"
  else addVary (Map.set h b!"Access-Control-Allow-Origin" (getFirst r.headers b!"Origin")) b!"Origin"

/-- Second part of `addStandardCorsHeaders` (`middleware/cors.go:178-184`). -/
def addCredentials (c : Config) (h : Map Str) : Map Str :=
  setWhen (decide (c.exposedHeaders.length > 0))
    (setWhen c.supportsCredentials h b!"Access-Control-Allow-Credentials" b!"true")
    b!"Access-Control-Expose-Headers" (joinWith 44 c.exposedHeaders)

/-- Part of `addStandardCorsHeaders` for OPTIONS (`middleware/cors.go:186-201`). -/
def addOptions (c : Config) (h : Map Str) : Map Str :=
  setWhen (decide (c.allowedHttpHeaders.length > 0))
    (setWhen (decide (c.allowedHttpMethods.length > 0))
      (setWhen (decide (c.preflightMaxAgeSeconds > 0))
        (addVary (addVary h b!"Access-Control-Request-Method") b!"Access-Control-Request-Headers")
        b!"Access-Control-Max-Age" (itoaInt c.preflightMaxAgeSeconds))
      b!"Access-Control-Allow-Methods" (joinWith 44 c.allowedHttpMethods))
    b!"Access-Control-Allow-Headers" (joinWith 44 c.allowedHttpHeaders)

/-- `addStandardCorsHeaders` (`middleware/cors.go:167-202`). -/
def addStandard (c : Config) (r : Req) (h : Map Str) : Map Str :=
  if r.method == b!"OPTIONS" then addOptions c (addCredentials c (addOrigin c r h))
  else addCredentials c (addOrigin c r h)

/-- The checks of `addSimpleCorsHeaders` (`middleware/cors.go:119-129`). -/
def simpleOK (x : Ext) (c : Config) (r : Req) : Bool :=
  if !originAllowed c (getFirst r.headers b!"Origin") then false
  else if !allowedMethod x c r.method then false
  else true

/-- The checks of `addPreFlightCorsHeaders` (`middleware/cors.go:136-161`). -/
def preFlightOK (x : Ext) (c : Config) (r : Req) : Bool :=
  if !originAllowed c (getFirst r.headers b!"Origin") then false
  else match Map.get? r.headers b!"Access-Control-Request-Method" with
    | none => false
    | some _ =>
      if !allowedMethod x c (trimSpace (getFirst r.headers b!"Access-Control-Request-Method")) then false
      else (splitOn 44 (trimSpace (getFirst r.headers b!"Access-Control-Request-Headers"))).all fun h =>
        let h := trimSpace h
        !(h != [] && !allowedHeader x c (trimSpace h))

section
variable {σ α : Type}

/-- Write the standard headers into the response, panicking on a nil map. -/
def respond (c : Config) (r : Req) (resp : RespH α) : HRes (RespH α) :=
  match resp.headers with
  | none => .panic (some b!"assignment to entry in nil map")
  | some h => .ret (some { resp with headers := some (addStandard c r h) }) none

/-- `Cors` (`middleware/cors.go:90-116`).  A nil response without error makes `Headers()`
panic. -/
def cors (x : Ext) (c : Config) : Middleware σ (RespH α) := fun handler ctx req s =>
  match handler ctx req s with
  | (.panic v, s') => (.panic v, s')
  | (.ret _ (some e), s') => (.ret none (some e), s')
  | (.ret resp none, s') =>
    match requestType x req with
    | .invalid => (.ret none (some .accessDenied), s')
    | k =>
      match resp with
      | none => (.panic (some b!"nil pointer dereference"), s')
      | some resp =>
        match k with
        | .preFlight =>
          if preFlightOK x c req then (respond c req resp, s') else (.ret none (some .accessDenied), s')
        | .notCors => (respond c req resp, s')
        | _ => if simpleOK x c req then (respond c req resp, s') else (.ret none (some .accessDenied), s')

end
end Cors

namespace Security

/-- `SecurityHeadersConfig` (`middleware/security.go:27-79`) without the cached texts.
`xFrameAllowFrom` says whether `XFrameOption` is `XFrameOptionAllowFrom`; the other options are
not read anywhere, they are kept as a number. -/
structure Config where
  stsEnabled : Bool := false
  stsMaxAge : Int := 0
  stsIncludeSubDomains : Bool := false
  stsPreload : Bool := false
  clickEnabled : Bool := false
  xFrameOption : Nat := 0
  xFrameOptionHeaderValue : Str := []
  xFrameAllowFromUri : Str := []
  blockSniffing : Bool := false
  xss : Bool := false

/-- `XFrameOptionDeny`, `XFrameOptionSameOrigin`, `XFrameOptionAllowFrom`
(`middleware/security.go:22-24`): `iota` counts the whole block. -/
def deny : Nat := 6
/-- See `deny`. -/
def sameOrigin : Nat := 7
/-- See `deny`. -/
def allowFrom : Nat := 8

/-- The cached header texts (`headerValue` fields, `middleware/security.go:32,57`). -/
structure Cached where
  sts : Str := []
  click : Str := []

/-- `getHeaderValue` (`middleware/security.go:36-50`): value and new cache. -/
def stsValue (c : Config) (cached : Str) : Str :=
  if cached = [] then
    b!"max-age=" ++ itoaInt c.stsMaxAge ++ (if c.stsIncludeSubDomains then b!";includeSubDomains" else []) ++
      (if c.stsPreload then b!";preload" else [])
  else cached

/-- `getAntiClickJackingHeaderValue` (`middleware/security.go:61-72`). -/
def clickValue (c : Config) (cached : Str) : Str :=
  if cached = [] then
    c.xFrameOptionHeaderValue ++ (if c.xFrameOption = allowFrom then 32 :: c.xFrameAllowFromUri else [])
  else cached

section
variable {σ α : Type}

/-- `Set` on a possibly nil map. -/
def setH (h : Option (Map Str)) (k v : Str) : Option (Option (Map Str)) :=
  match h with
  | none => none
  | some m => some (some (Map.set m k v))

/-- Apply a `Set` if enabled; `none` means the write to a nil map panicked. -/
def setIf (b : Bool) (k v : Str) (h : Option (Option (Map Str))) : Option (Option (Map Str)) :=
  match h with
  | none => none
  | some h => if b then setH h k v else some h

/-- `SecurityHeaders` (`middleware/security.go:82-115`); the cached texts are part of the state
since they survive between requests. -/
def securityHeaders (c : Config) (handler : Handler σ (RespH α)) (ctx : Ctx) (req : Req)
    (cached : Cached) (s : σ) : HRes (RespH α) × Cached × σ :=
  match handler ctx req s with
  | (.panic v, s') => (.panic v, cached, s')
  | (.ret _ (some e), s') => (.ret none (some e), cached, s')
  | (.ret resp none, s') =>
    let sts := c.stsEnabled && (req.tls || toLower req.scheme == b!"https")
    let cached' : Cached :=
      ⟨if sts then stsValue c cached.sts else cached.sts,
       if c.clickEnabled then clickValue c cached.click else cached.click⟩
    match resp with
    | none =>
      if sts || c.clickEnabled || c.blockSniffing || c.xss then
        (.panic (some b!"nil pointer dereference"), cached, s')
      else (.ret none none, cached, s')
    | some r =>
      let h := setIf sts b!"Strict-Transport-Security" (stsValue c cached.sts) (some r.headers)
      let h := setIf c.clickEnabled b!"X-Frame-Options" (clickValue c cached.click) h
      let h := setIf c.blockSniffing b!"X-Content-Type-Options" b!"nosniff" h
      let h := setIf c.xss b!"X-Xss-Protection" b!"1; mode=block" h
      match h with
      | none =>
        (.panic (some b!"assignment to entry in nil map"), ⟨cached'.sts, if sts then cached.click else cached'.click⟩, s')
      | some h => (.ret (some { r with headers := h }) none, cached', s')

/-- A sequence of requests through one middleware value. -/
def runSec (c : Config) (handler : Handler σ (RespH α)) (ctx : Ctx) :
    List Req → Cached × σ → List (HRes (RespH α)) × Cached × σ
  | [], w => ([], w)
  | r :: rs, (cached, s) =>
    let (res, w) := securityHeaders c handler ctx r cached s
    let (rest, w') := runSec c handler ctx rs w
    (res :: rest, w')

end
end Security
end Gofre
