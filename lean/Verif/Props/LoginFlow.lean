import Verif.Props.Links
import Verif.Props.Login
import Verif.Props.Flow

/-! # C80 for applications: a login from beginning to end -/

namespace Gofre.Props
open Gofre.Http Gofre.Response Gofre.Spec Gofre.Serve Gofre.Path Gofre.MW Gofre.Stack Gofre.App
open Gofre.Mux (World run)
variable {σ : Type} {env : Env} {c : Codec} {x : Ext} {other : Str → Str} {ci : Bool}

/-- A callback with a live state and a code that the provider redeems runs the user's handler. -/
theorem callbackIn_runs (cfg : OAuth.Config σ) (base : Str) {vars : Str → Option Str} {ctx : Ctx} {req : Req} {w : LoginState σ} {p : OAuth.Provider σ}
    (hv : vars b!"providerName" = some p.name) (hp : OAuth.byName cfg.providers p.name = some p) (herr : given req b!"error" = [])
    (hlive : Live w.cache w.now (given req b!"state")) {tok : OAuth.AccessToken} {s₁ : σ}
    (htok : p.fetchToken (cfg.websiteUrl ++ base ++ b!"/" ++ p.name) (given req b!"code") w.rest = (.ok tok, s₁)) (h : AHandler (LoginState σ)) :
    (cfg.fetchUserDetails = false → callbackIn cfg base h vars ctx req w = h vars { ctx with token := some tok.accessToken } req { w with rest := s₁ }) ∧
    ∀ u s₂, cfg.fetchUserDetails = true → p.fetchUser tok s₁ = (.ok u, s₂) →
      callbackIn cfg base h vars ctx req w = h vars { ctx with token := some tok.accessToken, principal := some (Context.userPrincipal u) } req { w with rest := s₂ } := by
  have hred : OAuth.redirectUrl cfg base p = cfg.websiteUrl ++ base ++ b!"/" ++ p.name := by simp [OAuth.redirectUrl]
  have hc := (live_iff _ _ _).1 hlive
  unfold callbackIn OAuth.callback
  simp only [hv, formValue_given, hp, herr, hred, htok, hc]
  constructor
  · intro hf
    simp [hf, loginCtx]
  · intro u s₂ hf hu
    simp [hf, hu, loginCtx]

theorem byName_of_first {ps : List (OAuth.Provider σ)} {p : OAuth.Provider σ} : (∃ l k, ps = l ++ p :: k ∧ ∀ o ∈ l, o.name ≠ p.name) → OAuth.byName ps p.name = some p := by
  rintro ⟨l, k, rfl, hl⟩
  induction l with
  | nil => simp [OAuth.byName]
  | cons o l ih =>
    rw [List.cons_append, OAuth.byName, if_neg (Ne.symm (hl o (by simp)))]
    exact ih fun o' h => hl o' (by simp [h])

theorem routesMade_mem {H : Type} {l : List (Mux.Op H)} {rt : Mux.Route H} (h : rt ∈ routesMade l) : ∀ k : List (Mux.Op H), rt ∈ routesMade (k ++ l)
  | [] => h
  | op :: k => by
    have ih := routesMade_mem h k
    cases op <;> simp only [List.cons_append, routesMade]
    · exact ih
    · exact ih
    · exact ih
    · split
      · exact List.mem_append_left _ ih
      · exact ih
    · split
      · exact List.mem_append_left _ ih
      · exact ih

/-- The two routes of a login behind no middlewares. -/
theorem login_routes {cfg : OAuth.Config σ} {v : Nat} {initiatePath basePath : Str} {pre post : List (Mux.Op (AHandler (LoginState σ)))} {h : AHandler (LoginState σ)}
    {ops : List (Mux.Op (AHandler (LoginState σ)))} {P : Str} (hP : P = prefixAt pre.reverse v)
    (hp : ops = withLogin cfg v P initiatePath basePath [] [] pre post h)
    (hv : v < count pre.reverse) (hcommon : commonAt pre.reverse v = []) :
    (⟨b!"GET", joinPath P initiatePath, initiateIn cfg (joinPath P basePath)⟩ : Mux.Route _) ∈ routesMade ops.reverse ∧
    (⟨b!"GET", joinPath P (basePath ++ b!"/{providerName}"), callbackIn cfg (joinPath P basePath) h⟩ : Mux.Route _) ∈ routesMade ops.reverse := by
  have hr : ops.reverse = post.reverse ++ ((loginOps cfg v P initiatePath basePath h [] []).reverse ++ pre.reverse) := by
    rw [hp]; simp
  rw [hr]
  constructor <;> refine routesMade_mem ?_ _ <;>
    simp [loginOps, Mux.oauthOps, routesMade, count, hv, hcommon, prefixAt, commonAt, wrapAll, resolvePath_eq, ← hP]

/-- C80, what is installed: on a mux with path prefix `m.pathPrefix`, the initiate handler behind the middlewares given for it, and the
callback handler around the user's handler behind the others, both behind the common ones. -/
theorem c80_installed (cfg : OAuth.Config σ) (w : Mux.World (AHandler (LoginState σ))) (v i : Nat) (m : Mux.Mux (AHandler (LoginState σ))) (hv : w.deref v = some (i, m))
    (initiatePath basePath : Str) (h : AHandler (LoginState σ)) (ims cms : List (Option (AHandler (LoginState σ) → AHandler (LoginState σ)))) :
    (Mux.run w (loginOps cfg v m.pathPrefix initiatePath basePath h ims cms)).routes = w.routes ++
      [⟨b!"GET", joinPath m.pathPrefix initiatePath, wrapAll (wrapAll (initiateIn cfg (joinPath m.pathPrefix basePath)) ims) m.common⟩,
       ⟨b!"GET", joinPath m.pathPrefix (basePath ++ b!"/{providerName}"), wrapAll (wrapAll (callbackIn cfg (joinPath m.pathPrefix basePath) h) cms) m.common⟩] := by
  rw [loginOps, c80_registered w v i m hv, resolvePath_eq]

/-- With a middleware for the initiate route only. -/
example (mw : AHandler (LoginState (List Str)) → AHandler (LoginState (List Str))) (h : AHandler (LoginState (List Str))) :
    (Mux.run World.init (loginOps hubConfig 0 b!"/" b!"/in" b!"/back" h [some mw] [])).routes.map (fun r => (r.path, r.handler)) =
      [(b!"/in", mw (initiateIn hubConfig b!"/back")), (b!"/back/{providerName}", callbackIn hubConfig b!"/back" h)] := rfl

/-- C80 for an application, with whatever routes before and after those of the login: an initiate request that only the initiate route is for is
refused with 400 or answered with a redirect to one of the providers; then, after any requests that were not given the same random text,
a request for the path of the redirect URI that only the callback route is for, with the state before it expires and a code that the provider
redeems, runs the user's handler, with the provider's token.  Not covered: middlewares around the two routes (they decide for themselves),
requests that beginnings of patterns or other routes are for, prefixes with variables. -/
theorem c80_login_partial (hl : FoldLaws x.eqFold) (cfg : OAuth.Config σ) (v : Nat) (initiatePath basePath : Str)
    {pre post : List (Mux.Op (AHandler (LoginState σ)))} {h : AHandler (LoginState σ)} {ops : List (Mux.Op (AHandler (LoginState σ)))}
    {P : Str} (hP : P = prefixAt pre.reverse v) (hp : ops = withLogin cfg v P initiatePath basePath [] [] pre post h)
    (hv : v < count pre.reverse) (hcommon : commonAt pre.reverse v = [])
    {r : Router} (hload : load x other (newRouter ci) 0 (run World.init ops).routes = some r)
    (hplain : ∀ p ∈ patternsOf x ci (routesMade ops.reverse), (∀ seg ∈ p.segments, Plain ci seg) ∧ (pieces p.raw).length < 256 ∧ StarsLast p.segments ∧
      (p.segments.length ≤ 18 ∨ ∀ s ∈ p.segments, s.kind ≠ .multiple))
    (hfew : (routesMade ops.reverse).length < 65536) (hms : ∀ rt ∈ routesMade ops.reverse, Ascii rt.method)
    {buf : List USeg} (hb : buf.length = 19)
    -- the initiate request
    (q₁ : AReq) (hm₁ : SameMethod b!"GET" q₁.req.method) (ha₁ : Ascii q₁.req.method) (hlen₁ : q₁.path.length ≤ 65535) (hf₁ : Fits q₁.path)
    (hfaith₁ : Faithful ci (patternsOf x ci (routesMade ops.reverse)) (segmentsOf q₁.path))
    (hpre₁ : ∀ p ∈ patternsOf x ci (routesMade ops.reverse), ∀ k, 0 < k → k < p.segments.length → ¬ Describes x ci (p.segments.take k) (segmentsOf q₁.path))
    {pi : Pattern} (hpi : parsePattern x ci (joinPath P initiatePath) = .ok pi) (hd₁ : Describes x ci pi.segments (segmentsOf q₁.path))
    (honly₁ : ∀ rt ∈ routesMade ops.reverse, ∀ vars, Serves x ci rt q₁.req.method q₁.path vars →
      rt = ⟨b!"GET", joinPath P initiatePath, initiateIn cfg (joinPath P basePath)⟩)
    (t₁ : Int) (st : Str) (w : LoginState σ)
    -- everything else leaves the state alone
    (hops : ∀ t, ∀ op ∈ pre ++ post, OpKeeps (Keeping st t) op) (hh : ∀ t, Keeping st t h) :
    ∃ f₁ res₁ w₁, (∀ g, f₁ ≤ g → serveApp (c := c) x other env r ((run World.init ops).routes.map (·.handler)) q₁ buf g { w with now := t₁, rnd := st } = some (res₁, w₁)) ∧
      ((∃ msg, res₁ = deliver env (shown q₁) (.ret none (some (.badRequest msg)))) ∨
        ∃ p ∈ cfg.providers, res₁ = deliver env (shown q₁) (.ret (some (.resp (.redirect { status := 302 }
              (p.initiateUrl (cfg.websiteUrl ++ joinPath P basePath ++ b!"/" ++ p.name) st cfg.fetchUserDetails)))) none) ∧
          ∀ (hist : List (AReq × Int × Str)) (fuel : Nat) (l : List (WRes c)) (w₂ : LoginState σ), (∀ e ∈ hist, e.2.2 ≠ st) →
            serveLogins (c := c) x other env r ((run World.init ops).routes.map (·.handler)) buf fuel hist w₁ = some (l, w₂) →
          ∀ (q₂ : AReq) (t₂ : Int) (rnd : Str) (pc : Pattern), SameMethod b!"GET" q₂.req.method → Ascii q₂.req.method → q₂.path.length ≤ 65535 →
            parsePattern x ci (joinPath P (basePath ++ b!"/{providerName}")) = .ok pc → (pieces (joinPath P (basePath ++ b!"/{providerName}"))).length ≤ 19 →
            (∀ s ∈ pc.segments.dropLast, s.kind = .literal ∧ s.val ≠ b!"..") → p.name ≠ [] → slash ∉ p.name → p.name ≠ b!".." →
            q₂.path = joinPath P basePath ++ b!"/" ++ p.name →
            Faithful ci (patternsOf x ci (routesMade ops.reverse)) (segmentsOf q₂.path) →
            (∀ p ∈ patternsOf x ci (routesMade ops.reverse), ∀ k, 0 < k → k < p.segments.length → ¬ Describes x ci (p.segments.take k) (segmentsOf q₂.path)) →
            (∀ rt ∈ routesMade ops.reverse, ∀ vars, Serves x ci rt q₂.req.method q₂.path vars →
              rt = ⟨b!"GET", joinPath P (basePath ++ b!"/{providerName}"), callbackIn cfg (joinPath P basePath) h⟩) →
            t₂ < t₁ + cfg.keyExpiration → given q₂.req b!"error" = [] → given q₂.req b!"state" = st →
          ∀ tok s₁, p.fetchToken (cfg.websiteUrl ++ joinPath P basePath ++ b!"/" ++ p.name) (given q₂.req b!"code") w₂.rest = (.ok tok, s₁) →
            ∃ f₂ vars, vars b!"providerName" = some p.name ∧
              (cfg.fetchUserDetails = false → ∀ g, f₂ ≤ g → serveApp (c := c) x other env r ((run World.init ops).routes.map (·.handler)) q₂ buf g { w₂ with now := t₂, rnd := rnd } =
                some (deliver env (shown q₂) (h vars { token := some tok.accessToken } q₂.req { w₂ with now := t₂, rnd := rnd, rest := s₁ }).1,
                  (h vars { token := some tok.accessToken } q₂.req { w₂ with now := t₂, rnd := rnd, rest := s₁ }).2)) ∧
              ∀ u s₂, cfg.fetchUserDetails = true → p.fetchUser tok s₁ = (.ok u, s₂) →
                ∀ g, f₂ ≤ g → serveApp (c := c) x other env r ((run World.init ops).routes.map (·.handler)) q₂ buf g { w₂ with now := t₂, rnd := rnd } =
                  some (deliver env (shown q₂) (h vars { token := some tok.accessToken, principal := some (Context.userPrincipal u) } q₂.req { w₂ with now := t₂, rnd := rnd, rest := s₂ }).1,
                    (h vars { token := some tok.accessToken, principal := some (Context.userPrincipal u) } q₂.req { w₂ with now := t₂, rnd := rnd, rest := s₂ }).2)) := by
  obtain ⟨hri, hrc⟩ := login_routes hP hp hv hcommon
  have hserves : ∀ {path pat : Str} {p0 : Pattern} {q : AReq} {k : AHandler (LoginState σ)}, parsePattern x ci pat = .ok p0 → Describes x ci p0.segments (segmentsOf path) →
      SameMethod b!"GET" q.req.method → ∃ vars, Serves x ci ⟨b!"GET", pat, k⟩ q.req.method path vars := by
    intro path pat p0 q k h1 ⟨bs, h2⟩ h3
    exact ⟨_, h3, p0, bs, h1, h2, fun _ => rfl⟩
  obtain ⟨f₁, res₁, e1, e2⟩ := c126_served_partial (c := c) (env := env) hl ops hload hplain hfew q₁ ha₁ hms hb hlen₁ hf₁ hfaith₁ hpre₁ { w with now := t₁, rnd := st }
  rcases e2 with ⟨e2, _⟩ | ⟨rt, hrt, vars, hs, e2⟩
  · obtain ⟨vars, hs⟩ := hserves (q := q₁) hpi hd₁ hm₁
    exact absurd ⟨_, hri, vars, hs⟩ e2
  have := honly₁ rt hrt vars hs
  subst this
  refine ⟨f₁, res₁.1, res₁.2, fun g hg => e1 g hg, ?_⟩
  subst e2
  have hredir : ∀ p, OAuth.redirectUrl cfg (joinPath P basePath) p = cfg.websiteUrl ++ joinPath P basePath ++ b!"/" ++ p.name := fun p => by simp [OAuth.redirectUrl]
  rcases c80_initiate cfg (joinPath P basePath) (fun n => some (vars n)) {} q₁.req { w with now := t₁, rnd := st } with ⟨msg, hi, _⟩ | ⟨p, hpm, cache', hi, -, hfirst, hlive, -⟩
  · refine .inl ⟨msg, ?_⟩
    simp only [hi]
  · refine .inr ⟨p, hpm, by simp only [hi], ?_⟩
    simp only [hi]
    intro hist fuel l w₂ hno hserved q₂ t₂ rnd pc hm₂ ha₂ hlen₂ hpc h19 hlit hn1 hn2 hn3 hpath hfaith₂ hpre₂ honly₂ ht herr hst tok s₁ htok
    have hlive₂ : Live w₂.cache t₂ st := by
      refine c80_lasts (c := c) (x := x) (other := other) (env := env) cfg v P initiatePath basePath (ims := []) (cms := []) (pre := pre) (post := post) h [] none (fun _ => h)
        (by rw [hp]; rfl) (hops t₂) (by simp) (hh t₂) (fun _ => hh t₂) hist hno ?_ hserved
      exact (hlive t₂).2 ht
    have hcb : joinPath P (basePath ++ b!"/{providerName}") = OAuth.callbackPattern P basePath := (resolvePath_eq _ _).symm
    obtain ⟨ls, g1, g2, g3, g4⟩ := callback_segments (by rw [← hcb]; exact hpc) (by rw [← hcb]; exact h19) hlit hn1 hn2 hn3
    have hpath' : q₂.path = Mux.resolvePath P basePath ++ slash :: p.name := by rw [hpath, resolvePath_eq]; simp
    rw [← hpath'] at g3 g4
    have hd₂ : Describes x ci pc.segments (segmentsOf q₂.path) := by
      rw [g1, g3]; exact callback_describes g2
    obtain ⟨f₂, res₂, d1, d2⟩ := c126_served_partial (c := c) (env := env) hl ops hload hplain hfew q₂ ha₂ hms hb hlen₂ g4 hfaith₂ hpre₂ { w₂ with now := t₂, rnd := rnd }
    rcases d2 with ⟨d2, _⟩ | ⟨rt, hrt, vars', hs', d2⟩
    · obtain ⟨vars, hs⟩ := hserves (q := q₂) hpc hd₂ hm₂
      exact absurd ⟨_, hrc, vars, hs⟩ d2
    have := honly₂ rt hrt vars' hs'
    subst this
    have hname : vars' b!"providerName" = p.name := by
      obtain ⟨p0, bs, i1, i2, i3⟩ := hs'.described
      rw [hpc] at i1
      cases i1
      rw [i3, g1]
      rw [g1, g3] at i2
      rw [callback_value g2 i2]
      rfl
    have hrun := callbackIn_runs cfg (joinPath P basePath) (vars := fun n => some (vars' n)) (ctx := {}) (req := q₂.req) (w := { w₂ with now := t₂, rnd := rnd }) (p := p)
      (congrArg some hname) (byName_of_first hfirst) herr (by rw [hst]; exact hlive₂) htok h
    refine ⟨f₂, fun n => some (vars' n), congrArg some hname, ?_, ?_⟩
    · intro hf g hg
      rw [d1 g hg, d2]
      simp only [hrun.1 hf]
    · intro u s₂ hf hu g hg
      rw [d1 g hg, d2]
      simp only [hrun.2 u s₂ hf hu]

theorem describes_same_length {ss : List Segment} (hs : ∀ s ∈ ss, s.kind ≠ .multiple) {us : List Str} (h : Describes x ci ss us) : us.length = ss.length := by
  induction ss generalizing us with
  | nil => rw [describes_nil.1 h]; rfl
  | cons s ss ih =>
    obtain ⟨u, vs, rfl, _, h3⟩ := (describes_one (hs s (by simp))).1 h
    simp [ih (fun t ht => hs t (by simp [ht])) h3]

/-- An application with a login and a page. -/
def clubhouse : List (Mux.Op (AHandler (LoginState (List Str)))) :=
  withLogin hubConfig 0 [] b!"/oauth/initiate" b!"/oauth/authorize" [] [] [] [Mux.handleGet 0 b!"/news" tokenShower []] tokenShower

/-- The hypotheses of `c80_login_partial` hold for it, for any state and both requests. -/
example (st : Str) : (load plainExt id (newRouter false) 0 (run World.init clubhouse).routes).isSome = true ∧
    (∀ p ∈ patternsOf plainExt false (routesMade clubhouse.reverse), (∀ seg ∈ p.segments, Plain false seg) ∧ (pieces p.raw).length < 256 ∧ StarsLast p.segments ∧
      (p.segments.length ≤ 18 ∨ ∀ s ∈ p.segments, s.kind ≠ .multiple)) ∧
    (∀ rt ∈ routesMade clubhouse.reverse, Ascii rt.method) ∧
    (∀ us, Faithful false (patternsOf plainExt false (routesMade clubhouse.reverse)) us) ∧
    (∀ path, path = b!"/oauth/initiate" ∨ path = b!"/oauth/authorize/hub" → Fits path ∧
      ∀ p ∈ patternsOf plainExt false (routesMade clubhouse.reverse), ∀ k, 0 < k → k < p.segments.length → ¬ Describes plainExt false (p.segments.take k) (segmentsOf path)) ∧
    Describes plainExt false (patOf plainExt false b!"/oauth/initiate" 0).segments (segmentsOf b!"/oauth/initiate") ∧
    (∀ rt ∈ routesMade clubhouse.reverse, ∀ vars, Serves plainExt false rt b!"GET" b!"/oauth/initiate" vars →
      rt = ⟨b!"GET", b!"/oauth/initiate", initiateIn hubConfig b!"/oauth/authorize"⟩) ∧
    (∀ rt ∈ routesMade clubhouse.reverse, ∀ vars, Serves plainExt false rt b!"GET" b!"/oauth/authorize/hub" vars →
      rt = ⟨b!"GET", b!"/oauth/authorize/{providerName}", callbackIn hubConfig b!"/oauth/authorize" tokenShower⟩) ∧
    (∀ s ∈ (patOf plainExt false b!"/oauth/authorize/{providerName}" 0).segments.dropLast, s.kind = .literal ∧ s.val ≠ b!"..") ∧
    (∀ t, ∀ op ∈ [] ++ [Mux.handleGet 0 b!"/news" tokenShower []], OpKeeps (Keeping st t) op) ∧ ∀ t, Keeping st t tokenShower := by
  have hr : routesMade clubhouse.reverse = [⟨b!"GET", b!"/oauth/initiate", initiateIn hubConfig b!"/oauth/authorize"⟩,
      ⟨b!"GET", b!"/oauth/authorize/{providerName}", callbackIn hubConfig b!"/oauth/authorize" tokenShower⟩, ⟨b!"GET", b!"/news", tokenShower⟩] := rfl
  have hp : patternsOf plainExt false (routesMade clubhouse.reverse) =
      [patOf plainExt false b!"/oauth/initiate" 0, patOf plainExt false b!"/oauth/authorize/{providerName}" 0, patOf plainExt false b!"/news" 0] := by
    rw [hr]; decide +kernel
  have s1 : (patOf plainExt false b!"/oauth/initiate" 0).segments = [{ val := b!"oauth", kind := .literal }, { val := b!"initiate", kind := .literal }] := by decide +kernel
  have s2 : (patOf plainExt false b!"/oauth/authorize/{providerName}" 0).segments =
      [{ val := b!"oauth", kind := .literal }, { val := b!"authorize", kind := .literal }, { val := b!"{providerName}", kind := .capture, varName := b!"providerName" }] := by decide +kernel
  have s3 : (patOf plainExt false b!"/news" 0).segments = [{ val := b!"news", kind := .literal }] := by decide +kernel
  have u1 : segmentsOf b!"/oauth/initiate" = [b!"oauth", b!"initiate"] := by decide
  have u2 : segmentsOf b!"/oauth/authorize/hub" = [b!"oauth", b!"authorize", b!"hub"] := by decide
  have hb : bareB [patOf plainExt false b!"/oauth/initiate" 0, patOf plainExt false b!"/oauth/authorize/{providerName}" 0, patOf plainExt false b!"/news" 0] = true := by decide +kernel
  have hk : ∀ t, Keeping st t tokenShower := fun t _ _ _ _ hn _ => hn
  have p1 : parsePattern plainExt false b!"/oauth/initiate" = .ok (patOf plainExt false b!"/oauth/initiate" 0) := by decide +kernel
  have p2 : parsePattern plainExt false b!"/oauth/authorize/{providerName}" = .ok (patOf plainExt false b!"/oauth/authorize/{providerName}" 0) := by decide +kernel
  have p3 : parsePattern plainExt false b!"/news" = .ok (patOf plainExt false b!"/news" 0) := by decide +kernel
  have hnm : ∀ p ∈ patternsOf plainExt false (routesMade clubhouse.reverse), ∀ s ∈ p.segments, s.kind ≠ .multiple := by
    rw [hp]
    intro p h s hs
    simp only [List.mem_cons, List.not_mem_nil, or_false] at h
    rcases h with rfl | rfl | rfl
    · rw [s1] at hs; revert s; decide
    · rw [s2] at hs; revert s; decide
    · rw [s3] at hs; revert s; decide
  have hlen : ∀ (pat path : Str) (vars : Str → Str) (k : AHandler (LoginState (List Str))) (p : Pattern), Serves plainExt false ⟨b!"GET", pat, k⟩ b!"GET" path vars →
      parsePattern plainExt false pat = .ok p → (∀ s ∈ p.segments, s.kind ≠ .multiple) → (segmentsOf path).length = p.segments.length := by
    intro pat path vars k p ⟨_, p0, bs, h1, h2, _⟩ h3 h4
    rw [h3] at h1
    cases h1
    exact describes_same_length h4 ⟨bs, h2⟩
  refine ⟨by decide +kernel, ?_, ?_, ?_, ?_, ?_, ?_, ?_, ?_, ?_, hk⟩
  · intro p h
    have h' := h
    rw [hp] at h'
    obtain ⟨b1, b2, b3, _⟩ := bare_spec hb []
    exact ⟨b1 p h', Nat.lt_of_le_of_lt (b2 p h') (by decide), b3 p h', .inr (hnm p h)⟩
  · rw [hr]
    intro rt hrt
    have : rt.method = b!"GET" := by
      simp only [List.mem_cons, List.not_mem_nil, or_false] at hrt
      rcases hrt with rfl | rfl | rfl <;> rfl
    rw [this]
    simp only [Ascii]
    decide
  · intro us
    rw [hp]
    exact (bare_spec hb us).2.2.2.1
  · intro path hpath
    constructor
    · rcases hpath with rfl | rfl <;> exact fits_of_peak _ (by decide)
    · intro p h k h0 hk hd
      have hl := describes_same_length (fun s hs => hnm p h s (List.mem_of_mem_take hs)) hd
      rw [List.length_take] at hl
      rw [hp] at h
      simp only [List.mem_cons, List.not_mem_nil, or_false] at h
      rcases h with rfl | rfl | rfl
      · rw [s1] at hk hl
        rcases hpath with rfl | rfl
        · rw [u1] at hl; simp at hl hk; omega
        · rw [u2] at hl; simp at hl hk; omega
      · rw [s2] at hk hl hd
        rcases hpath with rfl | rfl
        · rw [u1] at hl hd
          have hk2 : k = 2 := by simp at hl hk; omega
          subst hk2
          obtain ⟨_, _, e, _, hd⟩ := (describes_one (by decide)).1 hd
          cases e
          obtain ⟨_, _, e, hf, _⟩ := (describes_one (by decide)).1 hd
          cases e
          revert hf
          simp [Fit]
        · rw [u2] at hl; simp at hl hk; omega
      · rw [s3] at hk; simp at hk; omega
  · rw [s1, u1]
    exact (describes_one (by decide)).2 ⟨_, _, rfl, .inl rfl, (describes_one (by decide)).2 ⟨_, _, rfl, .inl rfl, describes_nil.2 rfl⟩⟩
  · rw [hr]
    intro rt hrt vars hs
    simp only [List.mem_cons, List.not_mem_nil, or_false] at hrt
    rcases hrt with rfl | rfl | rfl
    · rfl
    · have := hlen _ _ _ _ _ hs p2 (hnm _ (by rw [hp]; simp))
      rw [u1, s2] at this
      simp at this
    · have := hlen _ _ _ _ _ hs p3 (hnm _ (by rw [hp]; simp))
      rw [u1, s3] at this
      simp at this
  · rw [hr]
    intro rt hrt vars hs
    simp only [List.mem_cons, List.not_mem_nil, or_false] at hrt
    rcases hrt with rfl | rfl | rfl
    · have := hlen _ _ _ _ _ hs p1 (hnm _ (by rw [hp]; simp))
      rw [u2, s1] at this
      simp at this
    · rfl
    · have := hlen _ _ _ _ _ hs p3 (hnm _ (by rw [hp]; simp))
      rw [u2, s3] at this
      simp at this
  · rw [s2]; decide
  · intro t op hop
    simp only [List.nil_append, List.mem_singleton] at hop
    subst hop
    exact ⟨hk t, by simp⟩

end Gofre.Props
