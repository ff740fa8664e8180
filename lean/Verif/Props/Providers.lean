import Verif.Spec.Provider
import Verif.Props.LoginFlow
import Verif.Props.Sent

/-! # C133: the providers that come with the framework under the documented addresses -/

namespace Gofre.Props
open Gofre.Path Gofre.Http Gofre.Response Gofre.Serve Gofre.Stack Gofre.App Gofre.Spec
variable {σ : Type}

theorem app_name (a : OAuth.App) (answer : OAuth.OutReq → σ → OAuth.Reply × σ) : (a.provider answer).name = knownAs a.kind := by
  cases a <;> rfl

theorem known_kind {k k' : OAuth.Kind} (h : knownAs k = knownAs k') : k = k' := by
  cases k <;> cases k' <;> first | rfl | (revert h; decide)

/-- The first of its kind is found under its name. -/
theorem app_byName {apps l r : List OAuth.App} {a : OAuth.App} (answer : OAuth.OutReq → σ → OAuth.Reply × σ) (happs : apps = l ++ a :: r) (hl : ∀ o ∈ l, o.kind ≠ a.kind) :
    OAuth.byName (apps.map (·.provider answer)) (knownAs a.kind) = some (a.provider answer) := by
  rw [← app_name a answer]
  refine byName_of_first ⟨l.map (·.provider answer), r.map (·.provider answer), by simp [happs], ?_⟩
  intro o ho
  obtain ⟨b, hb, rfl⟩ := List.mem_map.1 ho
  rw [app_name, app_name]
  exact fun h => hl b hb (known_kind h)

theorem app_told (a : OAuth.App) (answer : OAuth.OutReq → σ → OAuth.Reply × σ) (redirect state : Str) (b : Bool) :
    beforeQuery ((a.provider answer).initiateUrl redirect state b) = authorizeAt a.kind ∧
    (formPairs (queryOf ((a.provider answer).initiateUrl redirect state b))).Perm (told a redirect state b) := by
  cases a with
  | github g s => exact ⟨(c92_github g redirect state b).1, (c92_github g redirect state b).2.1⟩
  | google g s => exact ⟨(c92_google g redirect state b).1, (c92_google g redirect state b).2.1⟩

/-- C133, starting: a request with `provider=github` (or `google`) is sent to that provider's authorisation page, which is told the first configured client of that
kind, the random text kept as state and the callback address ending with the same name; with a single provider the parameter does not matter.  Any other request is refused
with 400 and changes nothing. -/
theorem c133_initiate (apps : List OAuth.App) (answer : OAuth.OutReq → σ → OAuth.Reply × σ) (cfg : OAuth.Config (OAuth.Net σ)) (hcfg : cfg.providers = apps.map (·.provider answer))
    (base : Str) (vars : Str → Option Str) (ctx : Ctx) (req : Req) (w : LoginState (OAuth.Net σ)) :
    (∀ l a r, apps = l ++ a :: r → (∀ o ∈ l, o.kind ≠ a.kind) → apps = [a] ∨ apps.length ≠ 1 ∧ given req b!"provider" = knownAs a.kind →
      ∃ url cache', initiateIn cfg base vars ctx req w = (.ret (some (.resp (.redirect { status := 302 } url))) none, { w with cache := cache' }) ∧
        beforeQuery url = authorizeAt a.kind ∧
        (formPairs (queryOf url)).Perm (told a (cfg.websiteUrl ++ base ++ b!"/" ++ knownAs a.kind) w.rnd cfg.fetchUserDetails) ∧
        (∀ t, Live cache' t w.rnd ↔ t < w.now + cfg.keyExpiration)) ∧
    (apps.length ≠ 1 → (∀ a ∈ apps, given req b!"provider" ≠ knownAs a.kind) →
      ∃ msg, initiateIn cfg base vars ctx req w = (.ret none (some (.badRequest msg)), w)) := by
  constructor
  · intro l a r happs hl hch
    have hby := app_byName answer happs hl
    rcases c80_initiate cfg base vars ctx req w with ⟨msg, _, hne, hbad⟩ | ⟨p, hp, cache', hi, hsel, hfirst, hlive, _⟩
    · exfalso
      rcases hch with h1 | ⟨_, hg⟩
      · exact hne _ (by rw [hcfg, h1]; rfl)
      · rcases hbad with h | h
        · rw [hg] at h
          revert h
          cases a.kind <;> decide
        · refine h (a.provider answer) (by rw [hcfg, happs]; simp) ?_
          rw [app_name, hg]
    · have hpa : p = a.provider answer := by
        rcases hch with h1 | ⟨hlen, hg⟩
        · rw [hcfg, h1] at hp
          simpa using hp
        · rcases hsel with h | h
          · rw [hcfg] at h
            exact absurd (by simpa using congrArg List.length h) hlen
          · have := byName_of_first hfirst
            rw [h, hg, hcfg, hby] at this
            exact (Option.some.inj this).symm
      subst hpa
      obtain ⟨h1, h2⟩ := app_told a answer (cfg.websiteUrl ++ base ++ b!"/" ++ knownAs a.kind) w.rnd cfg.fetchUserDetails
      rw [app_name] at hi
      exact ⟨_, cache', hi, h1, h2, hlive⟩
  · intro hlen hno
    rcases c80_initiate cfg base vars ctx req w with ⟨msg, h, _, _⟩ | ⟨p, hp, _, _, hsel, _⟩
    · exact ⟨msg, h⟩
    · exfalso
      rcases hsel with h | h
      · rw [hcfg] at h
        exact hlen (by simpa using congrArg List.length h)
      · rw [hcfg] at hp
        obtain ⟨a, ha, rfl⟩ := List.mem_map.1 hp
        exact hno a ha (by rw [← h, app_name])

/-- C133, the callback: a request for `…/github` (or `…/google`) with a live state and no error posts its code to that provider's token endpoint, in the name of the first
configured client of that kind; what happens next is decided by the reply.  Under any other name it is refused with 400 and nothing is sent. -/
theorem c133_callback (apps : List OAuth.App) (answer : OAuth.OutReq → σ → OAuth.Reply × σ) (cfg : OAuth.Config (OAuth.Net σ)) (hcfg : cfg.providers = apps.map (·.provider answer))
    (base : Str) (vars : Str → Option Str) (ctx : Ctx) (req : Req) (w : LoginState (OAuth.Net σ)) (name : Str) (hv : vars b!"providerName" = some name)
    (h : AHandler (LoginState (OAuth.Net σ))) :
    (∀ l a r, apps = l ++ a :: r → (∀ o ∈ l, o.kind ≠ a.kind) → name = knownAs a.kind → given req b!"error" = [] → Live w.cache w.now (given req b!"state") →
      ∃ out : OAuth.OutReq, out.url = redeemedAt a.kind ∧ out.method = b!"POST" ∧
        out = a.tokenRequest (cfg.websiteUrl ++ base ++ b!"/" ++ knownAs a.kind) (given req b!"code") ∧
        let sent : OAuth.Net σ := ⟨w.rest.sent ++ [out], (answer out w.rest.rest).2⟩
        (∀ e, OAuth.fetchAccessToken a.kind (answer out w.rest.rest).1 = .err e → callbackIn cfg base h vars ctx req w = (.ret none (some e), { w with rest := sent })) ∧
        ∀ tok, OAuth.fetchAccessToken a.kind (answer out w.rest.rest).1 = .ok tok →
          (cfg.fetchUserDetails = false → callbackIn cfg base h vars ctx req w = h vars { ctx with token := some tok.accessToken } req { w with rest := sent }) ∧
          ∀ u, cfg.fetchUserDetails = true → OAuth.fetchAuthenticatedUser a.kind (answer (OAuth.userRequest a.kind tok) sent.rest).1 = .ok u →
            callbackIn cfg base h vars ctx req w = h vars { ctx with token := some tok.accessToken, principal := some (Context.userPrincipal u) } req
              { w with rest := ⟨sent.sent ++ [OAuth.userRequest a.kind tok], (answer (OAuth.userRequest a.kind tok) sent.rest).2⟩ }) ∧
    ((∀ a ∈ apps, name ≠ knownAs a.kind) → ∃ msg, callbackIn cfg base h vars ctx req w = (.ret none (some (.badRequest msg)), w)) := by
  constructor
  · rintro l a r happs hl rfl herr hlive
    have hby : OAuth.byName cfg.providers (a.provider answer).name = some (a.provider answer) := by
      rw [hcfg, app_name]; exact app_byName answer happs hl
    refine ⟨_, ?_, by cases a <;> rfl, rfl, ?_, ?_⟩
    · cases a <;> rfl
    · intro e he
      have hred : OAuth.redirectUrl cfg base (a.provider answer) = cfg.websiteUrl ++ base ++ b!"/" ++ knownAs a.kind := by simp [OAuth.redirectUrl, app_name]
      have hc := (live_iff _ _ _).1 hlive
      rw [app_name] at hby
      unfold callbackIn OAuth.callback
      simp only [hv, formValue_given, hby, herr, hred, hc, app_token, he]
      simp
    · intro tok htok
      have hv' : vars b!"providerName" = some (a.provider answer).name := by rw [hv, app_name]
      have hrun := callbackIn_runs cfg base (ctx := ctx) hv' hby herr hlive (by rw [app_token, app_name, htok]) h
      refine ⟨hrun.1, ?_⟩
      intro u hf hu
      exact hrun.2 u _ hf (by rw [app_user, hu])
  · intro hno
    have : OAuth.byName cfg.providers name = none := by
      cases hb : OAuth.byName cfg.providers name with
      | none => rfl
      | some p =>
        obtain ⟨hm, hn⟩ := byName_some hb
        rw [hcfg] at hm
        obtain ⟨a, ha, rfl⟩ := List.mem_map.1 hm
        exact absurd (by rw [← hn, app_name]) (hno a ha)
    unfold callbackIn OAuth.callback
    simp only [hv, this]
    exact ⟨_, rfl⟩

/-- C133, the addresses: `HandleOAUTH2` on a mux without path prefix installs a route for GET at `/oauth/initiate` and one at `/oauth/authorize/{providerName}`; the redirect
URI told to a provider is the website's address followed by `/oauth/authorize/` and the provider's name. -/
theorem c133_installed (cfg : OAuth.Config σ) (w : Mux.World (AHandler (LoginState σ))) (v i : Nat) (m : Mux.Mux (AHandler (LoginState σ))) (hv : w.deref v = some (i, m))
    (hm : m.pathPrefix = [] ∨ m.pathPrefix = b!"/") (h : AHandler (LoginState σ)) (ims cms : List (Option (AHandler (LoginState σ) → AHandler (LoginState σ)))) :
    (Mux.run w (documentedLogin cfg v m.pathPrefix h ims cms)).routes = w.routes ++
      [⟨b!"GET", b!"/oauth/initiate", wrapAll (wrapAll (initiateIn cfg b!"/oauth/authorize") ims) m.common⟩,
       ⟨b!"GET", b!"/oauth/authorize/{providerName}", wrapAll (wrapAll (callbackIn cfg b!"/oauth/authorize" h) cms) m.common⟩] := by
  rw [documentedLogin, c80_installed cfg w v i m hv]
  rcases hm with hm | hm <;> rw [hm] <;> rfl

/-- Two GitHub clients and a Google client. -/
def threeApps : List OAuth.App :=
  [.github ⟨b!"first", [], false, []⟩ b!"s1", .github ⟨b!"second", [], false, []⟩ b!"s2", .google ⟨b!"third", [], false, false, [], []⟩ b!"s3"]

/-- They as the providers of a configuration, with a network that always answers the same. -/
def threeConfig : OAuth.Config (OAuth.Net Nat) :=
  { websiteUrl := b!"https://site", fetchUserDetails := false, keyExpiration := 10
    providers := threeApps.map (·.provider fun _ n => (.reply 200 [(b!"access_token", .str b!"T"), (b!"token_type", .str b!"bearer")], n + 1)) }

/-- The second GitHub client is never the one that is used; a callback for Google leaves one request, to Google. -/
example : (∀ o ∈ ([] : List OAuth.App), o.kind ≠ OAuth.Kind.github) ∧ threeConfig.providers.length = 3 ∧
    (match (initiateIn threeConfig b!"/oauth/authorize" (fun _ => none) {} { method := b!"GET", form := [(b!"provider", [b!"github"])] } ⟨5, b!"S", [], ⟨[], 0⟩⟩).1 with
      | .ret (some (.resp (.redirect _ url))) none => decide (url = b!"https://github.com/login/oauth/authorize?allow_signup=false&client_id=first&redirect_uri=https%3A%2F%2Fsite%2Foauth%2Fauthorize%2Fgithub&state=S")
      | _ => false) = true ∧
    ((callbackIn threeConfig b!"/oauth/authorize" (fun _ ctx _ w => (.ret none none, { w with rnd := ctx.token.getD [] })) (fun _ => some b!"google") {}
      { method := b!"GET", form := [(b!"state", [b!"S"]), (b!"code", [b!"c"])] } ⟨6, [], [(b!"S", 15)], ⟨[], 0⟩⟩).2.rest.sent.map (·.url)) = [b!"https://oauth2.googleapis.com/token"] := by
  refine ⟨by simp, rfl, ?_, by decide +kernel⟩
  decide +kernel

end Gofre.Props
