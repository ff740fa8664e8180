import Verif.Props.Passing
import Verif.Props.Security
import Verif.Props.Stack

/-! # C146: answers made of errors behind the middlewares that set headers -/

namespace Gofre.Props
open Gofre.Spec Gofre.Response Gofre.MW
variable {σ : Type} {quote : Str → Str}

/-- A response as the middlewares that set headers see it. -/
def shown (r : Resp) : RespH Resp := ⟨r.headers, r⟩

/-- The answer `ErrJsonResponse` makes of an error. -/
def errorAnswer (quote : Str → Str) (e : Err) : Resp :=
  Build.json (statusOf e) (some (some (Build.errorObject quote (Stack.errorMessage e))))

/-- `ErrJsonResponse` (`middleware/errors.go:31-37`) in front of a handler whose responses are seen by the middlewares that set headers. -/
def jsonErrors (quote : Str → Str) : Middleware σ (RespH Resp) :=
  errResponse fun status e => shown (Build.json status (some (some (Build.errorObject quote (Stack.errorMessage e)))))

/-- `SecurityHeaders` (`middleware/security.go:82-115`) as a handler, with the texts it remembers as part of the state. -/
def secured (c : Security.Config) (h : Handler σ (RespH Resp)) : Handler (Security.Cached × σ) (RespH Resp) :=
  fun ctx req s => Security.securityHeaders c h ctx req s.1 s.2

theorem jsonErrors_err {h : Handler σ (RespH Resp)} {ctx : Ctx} {r : Req} {s s' : σ} {o : Option (RespH Resp)} {e : Err}
    (hh : h ctx r s = (.ret o (some e), s')) : jsonErrors quote h ctx r s = (.ret (some (shown (errorAnswer quote e))) none, s') := by
  simp [jsonErrors, errResponse, hh, errorAnswer]

theorem errorAnswer_headers (e : Err) : (shown (errorAnswer quote e)).headers = some [] := rfl

/-! ### SecurityHeaders -/

/-- C146 for `SecurityHeaders` given before `ErrJsonResponse`: the answer made of an error carries exactly the configured headers. -/
theorem c146_security_partial (c : Security.Config) (h : Handler σ (RespH Resp)) (ctx : Ctx) (r : Req) (k : Security.Cached) (s s' : σ)
    (o : Option (RespH Resp)) (e : Err) (hk : CacheOK c k) (hh : h ctx r s = (.ret o (some e), s')) :
    ∃ k' hd, CacheOK c k' ∧ secured c (jsonErrors quote h) ctx r (k, s) = (.ret (some ⟨some hd, errorAnswer quote e⟩) none, k', s') ∧
      ∀ n, Map.get? hd n = promised c r n := by
  have hj := jsonErrors_err (quote := quote) hh
  have h1 := securityHeaders_outcome c (jsonErrors quote h) ctx r k s hk
  have h2 := securityHeaders_cache c (jsonErrors quote h) ctx r k s hk
  rw [hj] at h1
  obtain ⟨⟨hd, h3, h4⟩, h5⟩ := h1
  refine ⟨_, hd, h2, Prod.ext h3 (Prod.ext rfl h5), fun n => ?_⟩
  rw [h4 n]
  cases promised c r n <;> rfl

/-- C146 fails for `SecurityHeaders` given after `ErrJsonResponse`: whatever is configured, no answer made of an error carries a header of it. -/
theorem c146_violated_never (c : Security.Config) (h : Handler σ (RespH Resp)) (ctx : Ctx) (r : Req) (k : Security.Cached) (s s' : σ)
    (o : Option (RespH Resp)) (e : Err) (hh : h ctx r s = (.ret o (some e), s')) :
    ∃ hd, jsonErrors quote (secured c h) ctx r (k, s) = (.ret (some ⟨some hd, errorAnswer quote e⟩) none, k, s') ∧
      ∀ n, Map.get? hd n = none := by
  refine ⟨[], ?_, fun _ => rfl⟩
  have : secured c h ctx r (k, s) = (.ret none (some e), k, s') := by simp [secured, Security.securityHeaders, hh]
  exact jsonErrors_err this

/-! ### Cors -/

/-- C146 for `Cors` given before `ErrJsonResponse`: the answer made of an error, to a request that is permitted, can be read where the
request comes from. -/
theorem c146_cors_partial (x : Cors.Ext) (c : Cors.Config) (h : Handler σ (RespH Resp)) (ctx : Ctx) (r : Req) (s s' : σ)
    (q : Option (RespH Resp)) (e : Err) (hh : h ctx r s = (.ret q (some e), s'))
    (o : Str) (vs) (ho : Map.get? r.headers b!"Origin" = some (o :: vs)) (hx : ¬ SameOrigin r o)
    (hwf : WellFormed x o) (hp : Permitted x c r o) (hpost : r.method = b!"POST" → NamesType (getFirst r.headers b!"Content-Type"))
    (hpre : Preflight r → getFirst r.headers b!"Access-Control-Request-Method" ≠ []) :
    ∃ hd, Cors.cors x c (jsonErrors quote h) ctx r s = (.ret (some ⟨some hd, errorAnswer quote e⟩) none, s') ∧
      Map.get? hd b!"Access-Control-Allow-Origin" = some (if c.anyOriginAllowed then b!"*" else o) := by
  have hj := jsonErrors_err (quote := quote) hh
  obtain ⟨resp, h1⟩ := c49_permitted_served x c (jsonErrors quote h) ctx r s o vs ho hx hwf hp hpost hpre _ _ s' hj (errorAnswer_headers e)
  obtain ⟨-, -, resp₀, h₀, hd, h2, -, h4, h5, h6, -⟩ := c49_only_permitted x c (jsonErrors quote h) ctx r s o vs ho hx resp none s' h1
  rw [hj] at h2
  simp only [Prod.mk.injEq, HRes.ret.injEq, Option.some.injEq, and_true] at h2
  refine ⟨hd, ?_, h6⟩
  rw [h1]
  have : resp = ⟨some hd, errorAnswer quote e⟩ := by
    cases resp
    simp only at h4 h5
    rw [h4, h5, ← h2]
    rfl
  rw [this]

/-- … and what `Cors` refuses itself is then not turned into an answer, but is left to the router as an error; -/
theorem c146_refused (x : Cors.Ext) (c : Cors.Config) (h : Handler σ (RespH Resp)) (ctx : Ctx) (r : Req) (s s' : σ)
    (q : Option (RespH Resp)) (e : Err) (hh : h ctx r s = (.ret q (some e), s'))
    (o : Str) (vs) (ho : Map.get? r.headers b!"Origin" = some (o :: vs)) (hx : ¬ SameOrigin r o) (hp : ¬ Permitted x c r o) :
    Cors.cors x c (jsonErrors quote h) ctx r s = (.ret none (some .accessDenied), s') :=
  c49_refused x c (jsonErrors quote h) ctx r s o vs ho hx hp _ s' (jsonErrors_err hh)

/-- … which another `ErrJsonResponse` in front answers with 403.  So, `ErrJsonResponse` given twice, every error of the handler is answered
under its own status, to be read where it was asked for, if the request is permitted, and with 403 for others. -/
theorem c146_twice_partial (x : Cors.Ext) (c : Cors.Config) (h : Handler σ (RespH Resp)) (ctx : Ctx) (r : Req) (s s' : σ)
    (q : Option (RespH Resp)) (e : Err) (hh : h ctx r s = (.ret q (some e), s'))
    (o : Str) (vs) (ho : Map.get? r.headers b!"Origin" = some (o :: vs)) (hx : ¬ SameOrigin r o)
    (hwf : WellFormed x o) (hpost : r.method = b!"POST" → NamesType (getFirst r.headers b!"Content-Type"))
    (hpre : Preflight r → getFirst r.headers b!"Access-Control-Request-Method" ≠ []) :
    (Permitted x c r o → ∃ hd, jsonErrors quote (Cors.cors x c (jsonErrors quote h)) ctx r s = (.ret (some ⟨some hd, errorAnswer quote e⟩) none, s') ∧
      Map.get? hd b!"Access-Control-Allow-Origin" = some (if c.anyOriginAllowed then b!"*" else o)) ∧
    (¬ Permitted x c r o → jsonErrors quote (Cors.cors x c (jsonErrors quote h)) ctx r s =
      (.ret (some ⟨some [], Build.json 403 (some (some (Build.errorObject quote b!"access denied")))⟩) none, s')) := by
  constructor
  · intro hp
    obtain ⟨hd, h1, h2⟩ := c146_cors_partial (quote := quote) x c h ctx r s s' q e hh o vs ho hx hwf hp hpost hpre
    refine ⟨hd, ?_, h2⟩
    simp [jsonErrors, errResponse] at h1 ⊢
    rw [h1]
  · intro hp
    exact jsonErrors_err (c146_refused x c h ctx r s s' q e hh o vs ho hx hp)

/-- C146 fails for `Cors` given after `ErrJsonResponse`: whatever is configured and asked for, no answer made of an error can be read by
another origin. -/
theorem c146_violated_never_cors (x : Cors.Ext) (c : Cors.Config) (h : Handler σ (RespH Resp)) (ctx : Ctx) (r : Req) (s s' : σ)
    (q : Option (RespH Resp)) (e : Err) (hh : h ctx r s = (.ret q (some e), s')) :
    ∃ hd, jsonErrors quote (Cors.cors x c h) ctx r s = (.ret (some ⟨some hd, errorAnswer quote e⟩) none, s') ∧
      ∀ n, Map.get? hd n = none := by
  refine ⟨[], ?_, fun _ => rfl⟩
  have : Cors.cors x c h ctx r s = (.ret none (some e), s') := by simp [Cors.cors, hh]
  exact jsonErrors_err this

/-! ### Examples -/

/-- A handler that finds nothing. -/
def missing : Handler Nat (RespH Resp) := fun _ _ n => (.ret none (some (.notFound b!"no such object")), n + 1)

/-- The two orders, for a configuration that blocks sniffing. -/
example :
    (secured { blockSniffing := true } (jsonErrors id missing) {} { method := b!"GET" } ({}, 4)).1 =
      .ret (some ⟨some [(b!"X-Content-Type-Options", b!"nosniff")], errorAnswer id (.notFound b!"no such object")⟩) none ∧
    (jsonErrors id (secured { blockSniffing := true } missing) {} { method := b!"GET" } ({}, 4)).1 =
      .ret (some ⟨some [], errorAnswer id (.notFound b!"no such object")⟩) none := ⟨rfl, rfl⟩

/-- The two orders, for a request from an allowed origin. -/
example :
    (Cors.cors asciiExt { allowedOrigins := [b!"https://a"], allowedHttpMethods := [b!"GET"] } (jsonErrors id missing) {}
      { method := b!"GET", headers := [(b!"Origin", [b!"https://a"])] } 4).1 =
      .ret (some ⟨some [(b!"Access-Control-Allow-Origin", b!"https://a"), (b!"Vary", b!"Origin")], errorAnswer id (.notFound b!"no such object")⟩) none ∧
    (jsonErrors id (Cors.cors asciiExt { allowedOrigins := [b!"https://a"], allowedHttpMethods := [b!"GET"] } missing) {}
      { method := b!"GET", headers := [(b!"Origin", [b!"https://a"])] } 4).1 =
      .ret (some ⟨some [], errorAnswer id (.notFound b!"no such object")⟩) none ∧
    (Cors.cors asciiExt { allowedOrigins := [b!"https://a"], allowedHttpMethods := [b!"GET"] } (jsonErrors id missing) {}
      { method := b!"GET", headers := [(b!"Origin", [b!"https://b"])] } 4).1 = .ret none (some .accessDenied) := ⟨rfl, rfl, rfl⟩

end Gofre.Props
