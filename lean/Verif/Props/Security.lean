import Verif.Proofs.Cors

/-! # C53, C71: security headers -/

namespace Gofre.Props
open Gofre.Security
variable {σ α : Type}

/-- What the configuration promises about one header of a response to `r` (`none`: nothing). -/
def promised (c : Config) (r : Req) (k : Str) : Option Str :=
  if k = b!"Strict-Transport-Security" then
    if c.stsEnabled && (r.tls || toLower r.scheme == b!"https") then
      some (b!"max-age=" ++ itoaInt c.stsMaxAge ++ (if c.stsIncludeSubDomains then b!";includeSubDomains" else []) ++
        (if c.stsPreload then b!";preload" else []))
    else none
  else if k = b!"X-Frame-Options" then
    if c.clickEnabled then
      some (c.xFrameOptionHeaderValue ++ (if c.xFrameOption = allowFrom then 32 :: c.xFrameAllowFromUri else []))
    else none
  else if k = b!"X-Content-Type-Options" then if c.blockSniffing then some b!"nosniff" else none
  else if k = b!"X-Xss-Protection" then if c.xss then some b!"1; mode=block" else none
  else none

/-- The cached texts are either unset or what an unset cache would produce. -/
structure CacheOK (c : Config) (k : Cached) : Prop where
  sts : k.sts = [] ∨ k.sts = stsValue c []
  click : k.click = [] ∨ k.click = clickValue c []

theorem CacheOK.stsValue {c : Config} {k : Cached} (h : CacheOK c k) : stsValue c k.sts = stsValue c [] := by
  rcases h.sts with h | h
  · rw [h]
  · rw [h]; simp [Security.stsValue]

theorem CacheOK.clickValue {c : Config} {k : Cached} (h : CacheOK c k) : clickValue c k.click = clickValue c [] := by
  rcases h.click with h | h
  · rw [h]
  · rw [h]
    simp only [Security.clickValue]
    split <;> simp_all

theorem securityHeaders_cache (c : Config) (h : Handler σ (RespH α)) (ctx : Ctx) (r : Req) (k : Cached) (s : σ)
    (hk : CacheOK c k) : CacheOK c (securityHeaders c h ctx r k s).2.1 := by
  have hk' : CacheOK c ⟨if c.stsEnabled && (r.tls || toLower r.scheme == b!"https") then
      Security.stsValue c k.sts else k.sts, if c.clickEnabled then Security.clickValue c k.click else k.click⟩ := by
    constructor
    · dsimp only
      split
      · exact .inr hk.stsValue
      · exact hk.sts
    · dsimp only
      split
      · exact .inr hk.clickValue
      · exact hk.click
  unfold securityHeaders
  split
  · exact hk
  · exact hk
  · dsimp only
    split
    · split <;> exact hk
    · split
      · refine ⟨hk'.sts, ?_⟩
        dsimp only
        split
        · exact hk.click
        · exact hk'.click
      · exact hk'

/-- One response through the middleware: `Headers()` of the handler's response, and what is
added. -/
def SecOutcome (c : Config) (r : Req) (inner outer : HRes (RespH α)) : Prop :=
  match inner with
  | .panic v => outer = .panic v
  | .ret _ (some e) => outer = .ret none (some e)
  | .ret none none => outer = .ret none none ∨ ∃ v, outer = .panic v
  | .ret (some resp) none =>
    match resp.headers with
    | none => outer = .ret (some resp) none ∨ ∃ v, outer = .panic v
    | some h₀ => ∃ h₁, outer = .ret (some { resp with headers := some h₁ }) none ∧
        ∀ k, Map.get? h₁ k = (promised c r k).or (Map.get? h₀ k)

theorem get?_setIf (b : Bool) (k v : Str) (m : Map Str) :
    ∃ m', setIf b k v (some (some m)) = some (some m') ∧
      ∀ k', Map.get? m' k' = if k' = k ∧ b = true then some v else Map.get? m k' := by
  cases b with
  | false => exact ⟨m, rfl, fun k' => by simp⟩
  | true =>
    refine ⟨Map.set m k v, rfl, fun k' => ?_⟩
    by_cases h : k' = k
    · subst h; simp [Map.get?_set_same]
    · simp [h, Map.get?_set_other _ _ _ _ h]

theorem setIf_none (b : Bool) (k v : Str) : ∀ x, (x = none ∨ x = some none) →
    setIf b k v x = none ∨ setIf b k v x = some none := by
  rintro x (rfl | rfl)
  · exact .inl rfl
  · cases b
    · exact .inr rfl
    · exact .inl rfl

theorem securityHeaders_outcome (c : Config) (h : Handler σ (RespH α)) (ctx : Ctx) (r : Req) (k : Cached) (s : σ)
    (hk : CacheOK c k) : SecOutcome c r (h ctx r s).1 (securityHeaders c h ctx r k s).1 ∧
      (securityHeaders c h ctx r k s).2.2 = (h ctx r s).2 := by
  unfold securityHeaders
  cases hh : h ctx r s with
  | mk res st =>
    cases res with
    | panic v => exact ⟨rfl, rfl⟩
    | ret resp e =>
      cases e with
      | some e => exact ⟨rfl, rfl⟩
      | none =>
        dsimp only
        generalize hsts : (c.stsEnabled && (r.tls || toLower r.scheme == b!"https")) = sts
        cases resp with
        | none =>
          dsimp only
          split
          · exact ⟨.inr ⟨_, rfl⟩, rfl⟩
          · exact ⟨.inl rfl, rfl⟩
        | some resp =>
          dsimp only
          cases hhd : resp.headers with
          | none =>
            have h1 := setIf_none sts b!"Strict-Transport-Security" (Security.stsValue c k.sts) (some none) (.inr rfl)
            have h2 := setIf_none c.clickEnabled b!"X-Frame-Options" (Security.clickValue c k.click) _ h1
            have h3 := setIf_none c.blockSniffing b!"X-Content-Type-Options" b!"nosniff" _ h2
            have h4 := setIf_none c.xss b!"X-Xss-Protection" b!"1; mode=block" _ h3
            rcases h4 with h4 | h4
            · rw [h4]
              refine ⟨?_, rfl⟩
              simp only [SecOutcome, hhd]
              exact .inr ⟨_, rfl⟩
            · rw [h4]
              refine ⟨?_, rfl⟩
              simp only [SecOutcome, hhd]
              refine .inl ?_
              cases resp; simp_all
          | some h₀ =>
            obtain ⟨m1, e1, g1⟩ := get?_setIf sts b!"Strict-Transport-Security" (Security.stsValue c k.sts) h₀
            rw [e1]
            obtain ⟨m2, e2, g2⟩ := get?_setIf c.clickEnabled b!"X-Frame-Options" (Security.clickValue c k.click) m1
            rw [e2]
            obtain ⟨m3, e3, g3⟩ := get?_setIf c.blockSniffing b!"X-Content-Type-Options" b!"nosniff" m2
            rw [e3]
            obtain ⟨m4, e4, g4⟩ := get?_setIf c.xss b!"X-Xss-Protection" b!"1; mode=block" m3
            rw [e4]
            refine ⟨?_, rfl⟩
            simp only [SecOutcome, hhd]
            refine ⟨m4, rfl, fun k' => ?_⟩
            rw [g4, g3, g2, g1, hk.stsValue, hk.clickValue]
            unfold promised
            rw [hsts]
            by_cases a1 : k' = b!"Strict-Transport-Security"
            · subst a1
              cases sts <;> simp [Security.stsValue]
            · by_cases a2 : k' = b!"X-Frame-Options"
              · subst a2
                cases c.clickEnabled <;> simp [Security.clickValue]
              · by_cases a3 : k' = b!"X-Content-Type-Options"
                · subst a3
                  cases c.blockSniffing <;> simp
                · by_cases a4 : k' = b!"X-Xss-Protection"
                  · subst a4
                    cases c.xss <;> simp
                  · simp [a1, a2, a3, a4]

/-- C53.  In any sequence of requests through one middleware value, starting with empty
caches, the `i`-th response carries exactly the promised headers on top of what the handler
set, whatever the earlier requests were (the handler's state at that point is `t`). -/
theorem c53_headers (c : Config) (h : Handler σ (RespH α)) (ctx : Ctx) (rs : List Req) (s : σ) (i : Nat)
    (r : Req) (hi : rs[i]? = some r) :
    ∃ t out, (runSec c h ctx rs ({}, s)).1[i]? = some out ∧ SecOutcome c r (h ctx r t).1 out := by
  have gen : ∀ (rs : List Req) (k : Cached) (s : σ) (i : Nat), CacheOK c k → rs[i]? = some r →
      ∃ t out, (runSec c h ctx rs (k, s)).1[i]? = some out ∧ SecOutcome c r (h ctx r t).1 out := by
    intro rs
    induction rs with
    | nil => intro k s i _ hi; simp at hi
    | cons q qs ih =>
      intro k s i hk hi
      cases i with
      | zero =>
        simp only [List.getElem?_cons_zero, Option.some.injEq] at hi
        subst hi
        exact ⟨s, _, rfl, (securityHeaders_outcome c h ctx q k s hk).1⟩
      | succ i =>
        simp only [List.getElem?_cons_succ] at hi
        obtain ⟨t, out, ho, hs⟩ := ih _ _ i (securityHeaders_cache c h ctx q k s hk) hi
        exact ⟨t, out, by simpa [runSec] using ho, hs⟩
  exact gen rs {} s i ⟨.inl rfl, .inl rfl⟩ hi

/-- The handler sees the same states as without the middleware. -/
theorem c53_handler_states (c : Config) (h : Handler σ (RespH α)) (ctx : Ctx) (rs : List Req) (s : σ) :
    (runSec c h ctx rs ({}, s)).2.2 = rs.foldl (fun t r => (h ctx r t).2) s := by
  have gen : ∀ (rs : List Req) (k : Cached) (s : σ), CacheOK c k →
      (runSec c h ctx rs (k, s)).2.2 = rs.foldl (fun t r => (h ctx r t).2) s := by
    intro rs
    induction rs with
    | nil => intro k s _; rfl
    | cons q qs ih =>
      intro k s hk
      have := (securityHeaders_outcome c h ctx q k s hk).2
      rw [List.foldl_cons, ← this]
      exact ih _ _ (securityHeaders_cache c h ctx q k s hk)
  exact gen rs {} s ⟨.inl rfl, .inl rfl⟩

/-- A concrete run: two requests, the first without TLS. -/
example : (runSec { stsEnabled := true, stsMaxAge := 31, blockSniffing := true }
    (fun _ _ (n : Nat) => (.ret (some ⟨some [(b!"A", b!"b")], n⟩) none, n + 1)) {}
    [{ method := b!"GET" }, { method := b!"GET", tls := true }] ({}, 5)).1 =
    [.ret (some ⟨some [(b!"A", b!"b"), (b!"X-Content-Type-Options", b!"nosniff")], 5⟩) none,
     .ret (some ⟨some [(b!"A", b!"b"), (b!"Strict-Transport-Security", b!"max-age=31"),
      (b!"X-Content-Type-Options", b!"nosniff")], 6⟩) none] := by decide

/-! ### C71 -/

/-- C71 fails: enabling clickjacking protection and choosing an option (here: deny) sends an
empty `X-Frame-Options`. -/
theorem c71_violated :
    ∃ (c : Config) (h : Map Str), c.clickEnabled = true ∧ c.xFrameOption = deny ∧
      (securityHeaders c (fun _ _ (n : Nat) => (.ret (some ⟨some [], ()⟩) none, n)) {} { method := b!"GET" } {} 0).1 =
        .ret (some ⟨some h, ()⟩) none ∧ Map.get? h b!"X-Frame-Options" = some [] :=
  ⟨{ clickEnabled := true, xFrameOption := deny }, [(b!"X-Frame-Options", [])], rfl, rfl, by decide, by decide⟩

/-- What is sent with the protection on. -/
theorem c71_sent (c : Config) (h : Handler σ (RespH α)) (ctx : Ctx) (r : Req) (k : Cached) (s : σ)
    (hk : CacheOK c k) (hc : c.clickEnabled = true)
    (resp : RespH α) (h₁ : Map Str) (k' s') (hres : securityHeaders c h ctx r k s = (.ret (some resp) none, k', s'))
    (hh : resp.headers = some h₁) :
    Map.get? h₁ b!"X-Frame-Options" =
      some (c.xFrameOptionHeaderValue ++ (if c.xFrameOption = allowFrom then 32 :: c.xFrameAllowFromUri else [])) := by
  have hout := (securityHeaders_outcome c h ctx r k s hk).1
  rw [hres] at hout
  unfold SecOutcome at hout
  split at hout
  · cases hout
  · cases hout
  · rcases hout with hout | ⟨v, hout⟩ <;> cases hout
  · split at hout
    · rename_i r0 hn
      rcases hout with hout | ⟨v, hout⟩
      · simp only [HRes.ret.injEq, Option.some.injEq, and_true] at hout
        rw [hout, hn] at hh; cases hh
      · cases hout
    · obtain ⟨h₁', heq, hg⟩ := hout
      simp only [HRes.ret.injEq, Option.some.injEq, and_true] at heq
      rw [heq] at hh
      simp only [Option.some.injEq] at hh
      rw [← hh, hg]
      simp [promised, hc]

/-- C71 for configurations that also spell the option in `XFrameOptionHeaderValue`. -/
theorem c71_explicit_value_partial (c : Config) (h : Handler σ (RespH α)) (ctx : Ctx) (r : Req) (k : Cached) (s : σ)
    (hk : CacheOK c k) (hc : c.clickEnabled = true)
    (hv : (c.xFrameOption = deny → c.xFrameOptionHeaderValue = b!"DENY") ∧
      (c.xFrameOption = sameOrigin → c.xFrameOptionHeaderValue = b!"SAMEORIGIN") ∧
      (c.xFrameOption = allowFrom → c.xFrameOptionHeaderValue = b!"ALLOW-FROM"))
    (resp : RespH α) (h₁ : Map Str) (k' s') (hres : securityHeaders c h ctx r k s = (.ret (some resp) none, k', s'))
    (hh : resp.headers = some h₁) :
    (c.xFrameOption = deny → Map.get? h₁ b!"X-Frame-Options" = some b!"DENY") ∧
    (c.xFrameOption = sameOrigin → Map.get? h₁ b!"X-Frame-Options" = some b!"SAMEORIGIN") ∧
    (c.xFrameOption = allowFrom →
      Map.get? h₁ b!"X-Frame-Options" = some (b!"ALLOW-FROM " ++ c.xFrameAllowFromUri)) := by
  rw [c71_sent c h ctx r k s hk hc resp h₁ k' s' hres hh]
  refine ⟨fun e => ?_, fun e => ?_, fun e => ?_⟩
  · rw [hv.1 e, e]; simp [deny, allowFrom]
  · rw [hv.2.1 e, e]; simp [sameOrigin, allowFrom]
  · rw [hv.2.2 e, e]; simp

end Gofre.Props
