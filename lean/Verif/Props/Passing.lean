import Verif.Props.Browser
import Verif.Spec.Takeover

/-! # C115, C137: responses behind the middlewares that set headers -/

namespace Gofre.Props
open Gofre.Spec Gofre.Response
variable {σ : Type}

/-- The middlewares that set headers see a response through its `Headers()`. -/
theorem headers_none {r : Resp} : r.headers = none ↔ TakesOver r := by
  constructor
  · intro h
    induction r with
    | hijack => exact .bare
    | compress l r ih => exact .compressed (ih h)
    | _ => simp [Resp.headers] at h
  · intro h
    induction h with
    | bare => rfl
    | compressed _ ih => exact ih

theorem headers_some {r : Resp} (h : ¬ TakesOver r) : ∃ m, r.headers = some m := by
  cases hr : r.headers with
  | none => exact absurd (headers_none.1 hr) h
  | some m => exact ⟨m, rfl⟩

/-! ### Cors -/

/-- C137 for `Cors`: a response that does not take the connection over is refused or passed on, and then only headers of CORS and `Vary` differ
from those it had. -/
theorem c137_cors_partial (x : Cors.Ext) (c : Cors.Config) (h : Handler σ (RespH Resp)) (ctx : Ctx) (r : Req) (s s' : σ) (resp : Resp)
    (hh : h ctx r s = (.ret (some ⟨resp.headers, resp⟩) none, s')) (hn : ¬ TakesOver resp) :
    Cors.cors x c h ctx r s = (.ret none (some .accessDenied), s') ∨
    ∃ h₀ hd, resp.headers = some h₀ ∧ Cors.cors x c h ctx r s = (.ret (some ⟨some hd, resp⟩) none, s') ∧
      ∀ k, k ∉ corsHeaders → Map.get? hd k = Map.get? h₀ k := by
  obtain ⟨h₀, h0⟩ := headers_some hn
  have hresp : Cors.respond c r ⟨resp.headers, resp⟩ = .ret (some ⟨some (Cors.addStandard c r h₀), resp⟩) none := by
    unfold Cors.respond
    rw [h0]
  have hk : ∀ k, k ∉ corsHeaders → Map.get? (Cors.addStandard c r h₀) k = Map.get? h₀ k := fun k hk => addStandard_other c r h₀ k fun hm => hk (by revert hm; simp [corsNames, corsHeaders]; grind)
  have ok : ∃ h₀' hd, resp.headers = some h₀' ∧ (Cors.respond c r ⟨resp.headers, resp⟩, s') = (HRes.ret (some ⟨some hd, resp⟩) none, s') ∧
      ∀ k, k ∉ corsHeaders → Map.get? hd k = Map.get? h₀' k := ⟨h₀, _, h0, by rw [hresp], hk⟩
  unfold Cors.cors
  rw [hh]
  dsimp only
  cases Cors.requestType x r <;> dsimp only
  · split
    · exact .inr ok
    · exact .inl rfl
  · split
    · exact .inr ok
    · exact .inl rfl
  · split
    · exact .inr ok
    · exact .inl rfl
  · exact .inr ok
  · exact .inl rfl

/-- C137 and C115 fail for `Cors`: whatever it is configured to and whatever is asked for, a response that takes the connection over does not come
through; the request is refused or panics, after the handler has run. -/
theorem c137_violated_never (x : Cors.Ext) (c : Cors.Config) (h : Handler σ (RespH Resp)) (ctx : Ctx) (r : Req) (s s' : σ) (resp : Resp)
    (hh : h ctx r s = (.ret (some ⟨resp.headers, resp⟩) none, s')) (ht : TakesOver resp) :
    Cors.cors x c h ctx r s = (.ret none (some .accessDenied), s') ∨ ∃ v, Cors.cors x c h ctx r s = (.panic (some v), s') := by
  have hresp : Cors.respond c r ⟨resp.headers, resp⟩ = .panic (some b!"assignment to entry in nil map") := by
    unfold Cors.respond
    rw [headers_none.2 ht]
  have ok : ∃ v, (Cors.respond c r ⟨resp.headers, resp⟩, s') = (HRes.panic (some v), s') := ⟨_, by rw [hresp]⟩
  unfold Cors.cors
  rw [hh]
  dsimp only
  cases Cors.requestType x r <;> dsimp only
  · split
    · exact .inr ok
    · exact .inl rfl
  · split
    · exact .inr ok
    · exact .inl rfl
  · split
    · exact .inr ok
    · exact .inl rfl
  · exact .inr ok
  · exact .inl rfl

/-- C115 fails for `Cors` without any cross-origin request: a request without `Origin` panics. -/
theorem c115_violated_cors (x : Cors.Ext) (c : Cors.Config) (h : Handler σ (RespH Resp)) (ctx : Ctx) (r : Req) (s s' : σ) (resp : Resp)
    (hh : h ctx r s = (.ret (some ⟨resp.headers, resp⟩) none, s')) (ht : TakesOver resp) (ho : Map.get? r.headers b!"Origin" = none) :
    ∃ v, Cors.cors x c h ctx r s = (.panic (some v), s') := by
  unfold Cors.cors
  rw [hh]
  have : Cors.requestType x r = .notCors := by unfold Cors.requestType; rw [ho]
  rw [this]
  exact ⟨_, by dsimp only; unfold Cors.respond; rw [headers_none.2 ht]⟩

/-! ### SecurityHeaders -/

/-- C137 for `SecurityHeaders`: a response that does not take the connection over is passed on with exactly the configured headers. -/
theorem c137_security_partial (c : Security.Config) (h : Handler σ (RespH Resp)) (ctx : Ctx) (r : Req) (k : Security.Cached) (s s' : σ) (resp : Resp)
    (hk : CacheOK c k) (hh : h ctx r s = (.ret (some ⟨resp.headers, resp⟩) none, s')) (hn : ¬ TakesOver resp) :
    ∃ h₀ hd, resp.headers = some h₀ ∧ (Security.securityHeaders c h ctx r k s).1 = .ret (some ⟨some hd, resp⟩) none ∧
      ∀ k, Map.get? hd k = (promised c r k).or (Map.get? h₀ k) := by
  obtain ⟨h₀, h0⟩ := headers_some hn
  have := (securityHeaders_outcome c h ctx r k s hk).1
  rw [hh] at this
  simp only [SecOutcome, h0] at this
  obtain ⟨h₁, h1, h2⟩ := this
  exact ⟨h₀, h₁, h0, h1, h2⟩

/-- C137 and C115 for `SecurityHeaders`, exactly: a response that takes the connection over comes through when none of the headers is to be
set, and makes the request panic, after the handler has run, when one is. -/
theorem c115_security_exact (c : Security.Config) (h : Handler σ (RespH Resp)) (ctx : Ctx) (r : Req) (k : Security.Cached) (s s' : σ) (resp : Resp)
    (hh : h ctx r s = (.ret (some ⟨resp.headers, resp⟩) none, s')) (ht : TakesOver resp) :
    ((∀ k, promised c r k = none) → (Security.securityHeaders c h ctx r k s).1 = .ret (some ⟨none, resp⟩) none) ∧
    ((∃ k, promised c r k ≠ none) → ∃ v, (Security.securityHeaders c h ctx r k s).1 = .panic (some v)) := by
  unfold Security.securityHeaders
  rw [hh]
  simp only [headers_none.2 ht]
  have hpr : ∀ k, promised c r k = if k = b!"Strict-Transport-Security" then
      if c.stsEnabled && (r.tls || toLower r.scheme == b!"https") then promised c r k else none
    else if k = b!"X-Frame-Options" then if c.clickEnabled then promised c r k else none
    else if k = b!"X-Content-Type-Options" then if c.blockSniffing then promised c r k else none
    else if k = b!"X-Xss-Protection" then if c.xss then promised c r k else none
    else none := by
    intro k
    unfold promised
    repeat' split
    all_goals first | rfl | simp_all
  have some1 : (c.stsEnabled && (r.tls || toLower r.scheme == b!"https")) = true → promised c r b!"Strict-Transport-Security" ≠ none := fun h => by
    unfold promised
    rw [if_pos rfl, if_pos h]
    exact nofun
  have some2 : c.clickEnabled = true → promised c r b!"X-Frame-Options" ≠ none := fun h => by simp [promised, h]
  have some3 : c.blockSniffing = true → promised c r b!"X-Content-Type-Options" ≠ none := fun h => by simp [promised, h]
  have some4 : c.xss = true → promised c r b!"X-Xss-Protection" ≠ none := fun h => by simp [promised, h]
  generalize (c.stsEnabled && (r.tls || toLower r.scheme == b!"https")) = sts at *
  generalize c.clickEnabled = click at *
  generalize c.blockSniffing = sniff at *
  generalize c.xss = xss at *
  constructor
  · intro hp
    have e1 : sts = false := by cases sts with | false => rfl | true => exact absurd (hp _) (some1 rfl)
    have e2 : click = false := by cases click with | false => rfl | true => exact absurd (hp _) (some2 rfl)
    have e3 : sniff = false := by cases sniff with | false => rfl | true => exact absurd (hp _) (some3 rfl)
    have e4 : xss = false := by cases xss with | false => rfl | true => exact absurd (hp _) (some4 rfl)
    subst e1 e2 e3 e4
    rfl
  · rintro ⟨k', hp⟩
    rw [hpr k'] at hp
    clear hpr some1 some2 some3 some4
    cases sts <;> cases click <;> cases sniff <;> cases xss
    case false.false.false.false =>
      refine absurd ?_ hp
      repeat' split
      all_goals first | rfl | contradiction
    all_goals exact ⟨_, rfl⟩

/-- The handler of a web socket. -/
def socketHandler : Handler Nat (RespH Resp) := fun _ _ n => (.ret (some ⟨Resp.hijack.headers, .hijack⟩) none, n + 1)

/-- A web socket behind either middleware. -/
example : Cors.cors asciiExt { anyOriginAllowed := true, allowedHttpMethods := [b!"GET"] } socketHandler {} { method := b!"GET" } 0 =
    (.panic (some b!"assignment to entry in nil map"), 1) := by rfl

example : (Security.securityHeaders { blockSniffing := true } socketHandler {} { method := b!"GET" } {} 0).1 =
    .panic (some b!"assignment to entry in nil map") := by rfl

/-- The handler of a text. -/
def textHandler : Handler Nat (RespH Resp) := fun _ _ n => (.ret (some ⟨(Resp.text {} b!"a").headers, Resp.text {} b!"a"⟩) none, n)

/-- A text passes. -/
example : ∃ hd, (Security.securityHeaders { blockSniffing := true } textHandler {} { method := b!"GET" } {} 0).1 = .ret (some ⟨some hd, Resp.text {} b!"a"⟩) none ∧
    Map.get? hd b!"X-Content-Type-Options" = some b!"nosniff" := ⟨[(b!"X-Content-Type-Options", b!"nosniff")], rfl, by decide⟩

end Gofre.Props
