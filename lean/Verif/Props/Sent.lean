import Verif.Props.OAuth
import Verif.Props.Query

/-! # C94: what leaves the application while a callback is handled -/

namespace Gofre.Props
open Gofre.OAuth Gofre.Cache Gofre.Spec
variable {σ ρ : Type}

theorem app_token (a : App) (answer : OutReq → σ → Reply × σ) (r c : Str) (n : Net σ) :
    (a.provider answer).fetchToken r c n = (fetchAccessToken a.kind (answer (a.tokenRequest r c) n.rest).1, ⟨n.sent ++ [a.tokenRequest r c], (answer (a.tokenRequest r c) n.rest).2⟩) := by
  cases a <;> rfl

theorem app_user (a : App) (answer : OutReq → σ → Reply × σ) (tok : AccessToken) (n : Net σ) :
    (a.provider answer).fetchUser tok n = (fetchAuthenticatedUser a.kind (answer (userRequest a.kind tok) n.rest).1, ⟨n.sent ++ [userRequest a.kind tok], (answer (userRequest a.kind tok) n.rest).2⟩) := by
  cases a <;> rfl

theorem app_url (a : App) (answer : OutReq → σ → Reply × σ) (redirect state : Str) (b : Bool) :
    beforeQuery ((a.provider answer).initiateUrl redirect state b) = authorizeAt a.kind ∧
    under b!"state" (formPairs (queryOf ((a.provider answer).initiateUrl redirect state b))) = [state] ∧
    under b!"redirect_uri" (formPairs (queryOf ((a.provider answer).initiateUrl redirect state b))) = [redirect] := by
  cases a with
  | github g s =>
    obtain ⟨h1, _, _, h2, h3⟩ := c92_github g redirect state b
    exact ⟨h1, h2, h3⟩
  | google g s =>
    obtain ⟨h1, _, _, h2, h3, _⟩ := c92_google g redirect state b
    exact ⟨h1, h2, h3⟩

/-- C92 for a flow being started: the provider the user is sent to reads the very state that is kept for the
callback, and as redirect address the one under which the callback is registered. -/
theorem c92_initiated (apps : List App) (answer : OutReq → σ → Reply × σ) (cfg : Config (Net σ)) (hcfg : cfg.providers = apps.map (·.provider answer))
    (base : Str) (now : Int) (st : Str) (req : Req) (c : Cache) (url : Str) (hok : (initiate cfg base now st req (some c)).1 = .ok url) :
    ∃ a ∈ apps, beforeQuery url = authorizeAt a.kind ∧ under b!"state" (formPairs (queryOf url)) = [st] ∧
      under b!"redirect_uri" (formPairs (queryOf url)) = [cfg.websiteUrl ++ base ++ b!"/" ++ (a.provider answer).name] ∧
      ∃ c', (initiate cfg base now st req (some c)).2 = some c' ∧ (0 < cfg.keyExpiration → contains c' now st = true) := by
  unfold initiate at hok ⊢
  cases hs : selectProvider cfg req with
  | error e => rw [hs] at hok; cases hok
  | ok p =>
    rw [hs] at hok
    have hm := (selectProvider_ok hs).1
    rw [hcfg] at hm
    obtain ⟨a, ha, rfl⟩ := List.mem_map.1 hm
    simp only [Except.ok.injEq] at hok
    subst hok
    obtain ⟨h1, h2, h3⟩ := app_url a answer (redirectUrl cfg base (a.provider answer)) st cfg.fetchUserDetails
    refine ⟨a, ha, h1, h2, ?_, _, rfl, ?_⟩
    · rw [h3]; simp [redirectUrl]
    · intro hpos
      simp only [contains, add, Map.get?_set_same, decide_eq_true_eq]
      omega

/-- C94.  With GitHub and Google as providers and a handler that sends nothing itself, a callback after any
history sends nothing; or, for an issued state that has not expired, only the token request of the
provider named in the path, carrying the callback's code; or that and then a request for the user with
the token that was answered. -/
theorem c94_sent (apps : List App) (answer : OutReq → σ → Reply × σ) (cfg : Config (Net σ)) (hcfg : cfg.providers = apps.map (·.provider answer))
    (base : Str) (h₀ h : OHandler (Net σ) ρ) (hh : ∀ c r n, (h c r n).2.sent = n.sent) (evs : List Ev) (n₀ n : Net σ) (now : Int) (name : Str) (req : Req) :
    (callback cfg base now name h {} req (OAuth.run cfg base h₀ evs (some empty, n₀)).1 n).2.sent = n.sent ∨
    (Issued cfg evs (given req b!"state") now ∧ given req b!"error" = [] ∧ ∃ a ∈ apps, (a.provider answer).name = name ∧
      let tr := a.tokenRequest (cfg.websiteUrl ++ base ++ b!"/" ++ name) (given req b!"code")
      ((callback cfg base now name h {} req (OAuth.run cfg base h₀ evs (some empty, n₀)).1 n).2.sent = n.sent ++ [tr] ∨
       cfg.fetchUserDetails = true ∧ ∃ tok, fetchAccessToken a.kind (answer tr n.rest).1 = .ok tok ∧
        (callback cfg base now name h {} req (OAuth.run cfg base h₀ evs (some empty, n₀)).1 n).2.sent = n.sent ++ [tr, userRequest a.kind tok])) := by
  obtain ⟨c, hc, hcs⟩ := run_cache cfg base h₀ evs empty n₀
  rw [hc]
  unfold callback
  simp only [formValue_given]
  cases hp : byName cfg.providers name with
  | none => exact .inl rfl
  | some p =>
    obtain ⟨hmem, hname⟩ := byName_some hp
    rw [hcfg] at hmem
    obtain ⟨a, ha, rfl⟩ := List.mem_map.1 hmem
    dsimp only
    by_cases herr : given req b!"error" ≠ []
    · simp only [if_pos herr]; exact .inl trivial
    simp only [if_neg herr]
    by_cases hst : (!contains c now (given req b!"state")) = true
    · simp only [if_pos hst]; exact .inl trivial
    simp only [if_neg hst]
    right
    have hred : redirectUrl cfg base (a.provider answer) = cfg.websiteUrl ++ base ++ b!"/" ++ name := by rw [← hname]; simp [redirectUrl]
    refine ⟨?_, Classical.not_not.1 herr, a, ha, hname, ?_⟩
    · have hct : contains c now (given req b!"state") = true := by simpa using hst
      unfold contains at hct
      split at hct
      · rename_i e he
        rcases hcs _ _ he with h | ⟨t, r, h1, h2, h3⟩
        · simp [empty, Map.get?] at h
        · exact ⟨t, r, h1, h2, by simpa [h3] using hct⟩
      · cases hct
    · rw [hred, app_token]
      cases hft : fetchAccessToken a.kind (answer (a.tokenRequest (cfg.websiteUrl ++ base ++ b!"/" ++ name) (given req b!"code")) n.rest).1 with
      | err e => exact .inl rfl
      | panic => exact .inl rfl
      | ok tok =>
        dsimp only
        cases hfu : cfg.fetchUserDetails with
        | false =>
          simp only [Bool.false_eq_true, if_false]
          exact .inl (hh _ _ _)
        | true =>
          right
          refine ⟨rfl, tok, rfl, ?_⟩
          simp only [if_true, app_user]
          cases fetchAuthenticatedUser a.kind (answer (userRequest a.kind tok) _).1 with
          | err e => simp
          | panic => simp
          | ok u => simp [hh]

/-- C94: each request the exchange sends goes to the provider's own endpoints, and a request to the user
endpoint holds neither the secret nor the code: it depends on the token alone.  Each asks for JSON, the only answer that is understood. -/
theorem c94_endpoints (a : App) (redirect code : Str) (tok : AccessToken) :
    (a.tokenRequest redirect code).url = (match a.kind with | .github => b!"https://github.com/login/oauth/access_token" | .google => b!"https://oauth2.googleapis.com/token") ∧
    (a.tokenRequest redirect code).method = b!"POST" ∧
    (userRequest a.kind tok).url = (match a.kind with | .github => b!"https://api.github.com/user" | .google => b!"https://www.googleapis.com/oauth2/v1/userinfo") ∧
    (userRequest a.kind tok).headers.lookup b!"Authorization" = some (b!"Bearer " ++ tok.accessToken) ∧ (userRequest a.kind tok).body = .none ∧
    (userRequest a.kind tok).method = b!"GET" ∧ (userRequest a.kind tok).headers.lookup b!"Accept" = some b!"application/json" ∧
    (a.tokenRequest redirect code).headers.lookup b!"Accept" = some b!"application/json" := by
  cases a <;> exact ⟨rfl, rfl, rfl, rfl, rfl, rfl, rfl, rfl⟩

/-- Both requests are sent. -/
example : ((callback (σ := Net Unit) (ρ := Unit) ⟨b!"http://h", true, [App.provider (fun r _ => (if r.method = b!"POST" then .reply 200 [(b!"access_token", .str b!"T"), (b!"token_type", .str b!"bearer")] else .reply 200 [(b!"login", .str b!"ann")], ())) (.github ⟨b!"id", [], false, []⟩ b!"sec")], 10⟩
    b!"/a" 2 b!"github" (fun _ _ n => (.ret none none, n)) {} { method := b!"GET", form := [(b!"state", [b!"st"]), (b!"code", [b!"c"])] }
    (OAuth.run ⟨b!"http://h", true, [App.provider (fun _ _ => (.failed, ())) (.github ⟨b!"id", [], false, []⟩ b!"sec")], 10⟩ b!"/a" (fun _ _ n => (.ret (none : Option Unit) none, n)) [.initiate 1 b!"st" { method := b!"GET" }] (some empty, ⟨[], ()⟩)).1 ⟨[], ()⟩).2.sent.map (·.url)) =
    [b!"https://github.com/login/oauth/access_token", b!"https://api.github.com/user"] := by decide +kernel

end Gofre.Props
