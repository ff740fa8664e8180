import Verif.Props.Flow

/-! # C87, C88: what an OAuth2 state is bound to -/

namespace Gofre.Props
open Gofre.Cache Gofre.OAuth
open Gofre.Spec (given)
variable {σ ρ : Type}

/-- An initiate request asks for provider `p`: it is the only configured one, or the request names it. -/
def AsksFor (cfg : Config σ) (req : Req) (p : Provider σ) : Prop :=
  cfg.providers = [p] ∨ (p ∈ cfg.providers ∧ p.name = given req b!"provider" ∧ p.name ≠ [])

/-- `state` was issued for provider `p` and is unexpired at `now`. -/
def IssuedFor (cfg : Config σ) (evs : List Ev) (state : Str) (now : Int) (p : Provider σ) : Prop :=
  ∃ t req, Ev.initiate t state req ∈ evs ∧ AsksFor cfg req p ∧ now < t + cfg.keyExpiration

/-- C87 with one configured provider: a callback runs the user's handler only with a state issued for the
provider whose token the handler sees.  Otherwise the outcome does not depend on the handler. -/
theorem c87_one_provider_partial (cfg : Config σ) (p : Provider σ) (hone : cfg.providers = [p]) (base : Str) (h₀ : OHandler σ ρ) (evs : List Ev) (s₀ s : σ)
    (now : Int) (name : Str) (req : Req) :
    (∃ octx s' tok s₁, name = p.name ∧ IssuedFor cfg evs (given req b!"state") now p ∧ octx.token = some tok ∧
        p.fetchToken (cfg.websiteUrl ++ base ++ b!"/" ++ p.name) (given req b!"code") s = (.ok tok, s₁) ∧
      ∀ h : OHandler σ ρ, callback cfg base now name h {} req (OAuth.run cfg base h₀ evs (some empty, s₀)).1 s = h octx req s') ∨
    (∃ out s', ∀ h : OHandler σ ρ, callback cfg base now name h {} req (OAuth.run cfg base h₀ evs (some empty, s₀)).1 s = (out, s')) := by
  rcases c43_only_issued_states cfg base h₀ evs s₀ s now name req with ⟨octx, s', ⟨h1, ⟨t, r, h2, h3, h4⟩, q, h5, h6, tok, s₁, h7, h8⟩, h9⟩ | ⟨out, s', _, h⟩
  · obtain rfl : q = p := by rw [hone] at h5; simpa using h5
    refine .inl ⟨octx, s', tok, s₁, h6.symm, ⟨t, r, h2, .inl hone, h4⟩, ?_, h7, h9⟩
    rcases h8 with ⟨_, u, _, rfl⟩ | ⟨_, _, rfl⟩ <;> rfl
  · exact .inr ⟨out, s', h⟩

/-- The handler is reached. -/
example : callback demoCfg b!"/oauth/authorize" 2 b!"github" counter {} demoReq
    (OAuth.run demoCfg b!"/oauth/authorize" counter [.initiate 1 b!"st" { method := b!"GET" }] (some empty, 0)).1 0 = (.ret (some ()) none, 1) := by decide

/-- C87 fails for every configuration with several providers: whatever provider the state was issued for,
the callback of every other one redeems its code and runs the user's handler. -/
theorem c87_violated_never (cfg : Config σ) (base : Str) (h₀ : OHandler σ ρ) (c₀ : Option Cache) (s₀ : σ) (before : List Ev)
    (t : Int) (st : Str) (req : Req) (url : Str)
    (hok : (initiate cfg base t st req (OAuth.run cfg base h₀ before (c₀, s₀)).1).1 = .ok url)
    (name : Str) (q : Provider σ) (hq : cfg.providers.find? (fun p => p.name = name) = some q)
    (now : Int) (creq : Req) (hnow : now < t + cfg.keyExpiration) (herr : given creq b!"error" = []) (hst : given creq b!"state" = st)
    (h : OHandler σ ρ) (s : σ) (tok : AccessToken) (s₁ : σ)
    (htok : q.fetchToken (cfg.websiteUrl ++ base ++ b!"/" ++ q.name) (given creq b!"code") s = (.ok tok, s₁)) (hf : cfg.fetchUserDetails = false) :
    callback cfg base now name h {} creq (OAuth.run cfg base h₀ (before ++ [.initiate t st req]) (c₀, s₀)).1 s = h ⟨some tok, none⟩ creq s₁ := by
  have hred : redirectUrl cfg base q = cfg.websiteUrl ++ base ++ b!"/" ++ q.name := by simp [redirectUrl]
  unfold initiate at hok
  cases hsel : selectProvider cfg req with
  | error e => rw [hsel] at hok; simp at hok
  | ok p =>
    rw [run_append]
    generalize OAuth.run cfg base h₀ before (c₀, s₀) = w
    obtain ⟨c, s'⟩ := w
    simp only [OAuth.run, initiate, hsel]
    unfold callback
    simp only [formValue_given]
    rw [← hred] at htok
    rw [byName_find, hq]
    simp only [herr, htok, hf]
    cases c with
    | none => simp
    | some c => simp [contains, hst, add, Map.get?_set_same, hnow]

/-- Two providers: the token a handler sees names the provider. -/
def twoCfg : Config Unit :=
  let provider (n : Str) : Provider Unit :=
    { name := n, initiateUrl := fun _ st _ => st, fetchToken := fun _ _ s => (.ok { accessToken := n, tokenType := b!"Bearer" }, s)
      fetchUser := fun _ s => (.err .unauthorized, s) }
  { websiteUrl := b!"https://w", fetchUserDetails := false, keyExpiration := 100, providers := [provider b!"github", provider b!"google"] }

/-- C87 fails: a state issued for GitHub is accepted at Google's callback. -/
theorem c87_violated : ∃ (req creq : Req) (p q : Provider Unit), p ∈ twoCfg.providers ∧ q ∈ twoCfg.providers ∧ p.name ≠ q.name ∧
    given req b!"provider" = p.name ∧ given creq b!"state" = b!"st" ∧
    callback twoCfg b!"/a" 2 q.name (fun ctx _ s => (.ret ctx.token none, s)) {} creq
      (OAuth.run twoCfg b!"/a" (fun ctx _ s => (.ret ctx.token none, s)) [.initiate 1 b!"st" req] (some empty, ())).1 () =
        (.ret (some { accessToken := q.name, tokenType := b!"Bearer" }) none, ()) :=
  ⟨{ method := b!"GET", form := [(b!"provider", [b!"github"])] }, demoReq, _, _, List.mem_cons_self, List.mem_cons_of_mem _ List.mem_cons_self,
    by decide, by decide, by decide, rfl⟩

/-- C88 fails for every configuration: whatever the headers (so also the cookies) of the request that starts
the flow and of the one that completes it, nothing but the state, the code and the absence of an error
decides; the second request need not come from the browser that made the first. -/
theorem c88_violated_never (cfg : Config σ) (base : Str) (h₀ : OHandler σ ρ) (c₀ : Option Cache) (s₀ : σ) (before : List Ev)
    (t : Int) (st : Str) (req : Req) (url : Str) (hok : (initiate cfg base t st req (OAuth.run cfg base h₀ before (c₀, s₀)).1).1 = .ok url) :
    ∃ p ∈ cfg.providers, ∀ (now : Int) (creq : Req) (s : σ) (tok : AccessToken) (s₁ : σ), now < t + cfg.keyExpiration →
      given creq b!"error" = [] → given creq b!"state" = st → cfg.fetchUserDetails = false →
      p.fetchToken (cfg.websiteUrl ++ base ++ b!"/" ++ p.name) (given creq b!"code") s = (.ok tok, s₁) →
      ∀ (h : OHandler σ ρ) (stranger : Map (List Str)),
        callback cfg base now p.name h {} { creq with headers := stranger } (OAuth.run cfg base h₀ (before ++ [.initiate t st req]) (c₀, s₀)).1 s =
          h ⟨some tok, none⟩ { creq with headers := stranger } s₁ := by
  obtain ⟨p, h1, _, h2⟩ := c80_completes cfg base h₀ c₀ s₀ before t st req url hok
  refine ⟨p, h1, fun now creq s tok s₁ hnow herr hst hf htok h stranger => ?_⟩
  exact (h2 [] now { creq with headers := stranger } h s (by simp) hnow herr hst tok s₁ htok).1 hf

/-- C88 fails: the flow begun in one session is completed in another. -/
theorem c88_violated : ∃ (req creq : Req), req.headers ≠ creq.headers ∧ given creq b!"state" = b!"st" ∧
    callback demoCfg b!"/a" 2 b!"github" counter {} creq (OAuth.run demoCfg b!"/a" counter [.initiate 1 b!"st" req] (some empty, 0)).1 0 = (.ret (some ()) none, 1) :=
  ⟨{ method := b!"GET", headers := [(b!"Cookie", [b!"session=attacker"])] }, { demoReq with headers := [(b!"Cookie", [b!"session=victim"])] },
    by decide, by decide, by decide⟩

/-- C88, what is left: the state of a completed flow was issued by some request to this application, less
than the expiration ago. -/
theorem c88_issued_partial (cfg : Config σ) (base : Str) (h₀ h : OHandler σ ρ) (evs : List Ev) (s₀ s : σ) (now : Int) (name : Str) (req : Req)
    (hno : ¬ ∃ p, IssuedFor cfg evs (given req b!"state") now p) :
    ∃ e, callback cfg base now name h {} req (OAuth.run cfg base h₀ evs (some empty, s₀)).1 s = (.ret none (some e), s) := by
  obtain ⟨c, hc, hcs⟩ := run_cache cfg base h₀ evs empty s₀
  rw [hc]
  unfold callback
  simp only [formValue_given]
  cases hp : byName cfg.providers name with
  | none => exact ⟨_, rfl⟩
  | some p =>
    dsimp only
    by_cases herr : given req b!"error" ≠ []
    · simp only [if_pos herr]; exact ⟨_, rfl⟩
    · simp only [if_neg herr]
      have : (!contains c now (given req b!"state")) = true := by
        simp only [Bool.not_eq_true', contains]
        split
        · rename_i e he
          rcases hcs _ _ he with h | ⟨t, r, h1, h2, h3⟩
          · simp [empty, Map.get?] at h
          · simp only [decide_eq_false_iff_not]
            intro hlt
            apply hno
            rcases h2 with h2 | ⟨q, h4, h5, h6⟩
            · obtain ⟨q, hq⟩ := List.length_eq_one_iff.1 h2
              exact ⟨q, t, r, h1, .inl hq, by omega⟩
            · exact ⟨q, t, r, h1, .inr ⟨h4, h5, h6⟩, by omega⟩
        · rfl
      simp only [if_pos this]; exact ⟨_, rfl⟩

example : ∃ e, callback demoCfg b!"/a" 200 b!"github" counter {} demoReq
    (OAuth.run demoCfg b!"/a" counter [.initiate 1 b!"st" { method := b!"GET" }] (some empty, 0)).1 0 = (.ret none (some e), 0) := ⟨_, rfl⟩

end Gofre.Props
