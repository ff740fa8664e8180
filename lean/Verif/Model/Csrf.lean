import Verif.Model.Cache
import Verif.Model.Http

/-!
# CSRF middleware (`middleware/csrf.go`)

The nonce cache is the in-memory cache.  The clock readings and the outcome of `rand.Read` of
each request are inputs (`Env`).  The cache is touched by this middleware only.
-/

namespace Gofre.Csrf
open Gofre.Cache
variable {σ ρ : Type}

/-- Per-request inputs from outside: clock at the `Contains` call, clock at the `Add` call, the
16 random bytes or a failure of the random source. -/
structure Env where
  tCheck : Int
  tAdd : Int
  rnd : Option (List UInt8)
  deriving DecidableEq, Repr

/-- One half-byte (`middleware/csrf.go:83-92`); `UInt8` arithmetic as in Go. -/
def nibble (b : UInt8) : UInt8 := if b < 10 then 48 + b else 65 + (b - 10)

/-- `generateNonce` without the failure case (`middleware/csrf.go:71-96`). -/
def hex : List UInt8 → Str
  | [] => []
  | b :: bs => nibble ((b &&& 0xf0) >>> 4) :: nibble (b &&& 0x0f) :: hex bs

/-- `CSRFExpirationTime` (`middleware/csrf.go:20`): one hour in nanoseconds. -/
def expiration : Int := 3600000000000

/-- `skipNonceCheck` (`middleware/csrf.go:43-46`). -/
def skipCheck (m : Str) : Bool :=
  m == b!"GET" || m == b!"HEAD" || m == b!"TRACE" || m == b!"OPTIONS"

/-- `previousNonce` (`middleware/csrf.go:48-51`).  `Header.Get` looks up the canonical spelling
of the configured name; received headers are stored under theirs. -/
def previousNonce (param header : Str) (r : Req) : Str :=
  let n := getFirst r.headers (Http.canonicalKey header)
  if n = [] then r.formGet param else n

/-- Second half of the middleware: issue a new nonce and call the handler
(`middleware/csrf.go:58-66`).  `InMemory.Add` never fails. -/
def issue (env : Env) (handler : Handler σ ρ) (ctx : Ctx) (req : Req) (c : Cache) (s : σ) :
    HRes ρ × Cache × σ :=
  match env.rnd with
  | none => (.ret none (some (.other b!"failed to generate nonce")), c, s)
  | some bytes =>
    let nonce := hex bytes
    let c' := add c env.tAdd nonce expiration
    let (res, s') := handler { ctx with nonce := some nonce } req s
    (res, c', s')

/-- `CSRFPreventionWithCustomParamAndHeaderName` (`middleware/csrf.go:40-69`). -/
def csrf (param header : Str) (env : Env) (handler : Handler σ ρ) (ctx : Ctx) (req : Req)
    (c : Cache) (s : σ) : HRes ρ × Cache × σ :=
  if skipCheck req.method then issue env handler ctx req c s
  else
    let n := previousNonce param header req
    if n = [] || !contains c env.tCheck n then (.ret none (some .accessDenied), c, s)
    else issue env handler ctx req (remove c n) s

/-- `CSRFPrevention` (`middleware/csrf.go:35-37`) with the names of `middleware/csrf.go:23-24`. -/
def csrfPrevention (env : Env) (handler : Handler σ ρ) : Ctx → Req → Cache → σ → HRes ρ × Cache × σ := csrf b!"_csrf" b!"X-Csrf-Token" env handler

/-- Requests processed one at a time. -/
def runSeq (param header : Str) (handler : Handler σ ρ) (ctx : Ctx) :
    List (Req × Env) → Cache × σ → Cache × σ
  | [], w => w
  | (r, e) :: rs, (c, s) => runSeq param header handler ctx rs (csrf param header e handler ctx r c s).2

/-! ## Concurrent requests

Each request with an unsafe method performs three cache calls; the calls themselves are
atomic, requests interleave arbitrarily between them.  (The in-memory cache is not even
synchronised; atomic calls are the best case.) -/

/-- Where a request is (`middleware/csrf.go:52`, `:55`, `:62`). -/
inductive Pc
  | start | checked | removed | done | denied
  deriving DecidableEq, Repr

/-- A request in flight: the nonce it carries and the one that will be issued to it. -/
structure Thread where
  nonce : Str
  fresh : Str
  pc : Pc := .start
  deriving DecidableEq, Repr

/-- Cache calls in the order in which they happen; `issue` is also the moment at which the
handler is entered. -/
inductive Ev
  | check (t : Nat) (nonce : Str)
  | refuse (t : Nat)
  | remove (t : Nat) (nonce : Str)
  | issue (t : Nat) (fresh : Str)
  deriving DecidableEq, Repr

/-- One cache call of request `i` at time `now`. -/
def cstep (i : Nat) (now : Int) (th : Thread) (c : Cache) : Option (Thread × Cache × Ev) :=
  match th.pc with
  | .start =>
    if th.nonce = [] || !contains c now th.nonce then
      some ({ th with pc := .denied }, c, .refuse i)
    else some ({ th with pc := .checked }, c, .check i th.nonce)
  | .checked => some ({ th with pc := .removed }, remove c th.nonce, .remove i th.nonce)
  | .removed => some ({ th with pc := .done }, add c now th.fresh expiration, .issue i th.fresh)
  | .done => none
  | .denied => none

/-- A schedule says which request moves next and at what time; requests that are finished do
not move. -/
def runConc : List (Nat × Int) → List Thread → Cache → List Ev → List Thread × Cache × List Ev
  | [], ths, c, evs => (ths, c, evs)
  | (i, now) :: sch, ths, c, evs =>
    match ths[i]? with
    | none => runConc sch ths c evs
    | some th =>
      match cstep i now th c with
      | none => runConc sch ths c evs
      | some (th', c', ev) => runConc sch (ths.set i th') c' (evs ++ [ev])

end Gofre.Csrf
