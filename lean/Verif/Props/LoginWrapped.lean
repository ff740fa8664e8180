import Verif.Props.LoginFlow

/-! # C80 for applications whose routes are behind middlewares -/

namespace Gofre.Props
open Gofre.Http Gofre.Response Gofre.Spec Gofre.Serve Gofre.Path Gofre.MW Gofre.Stack Gofre.App
open Gofre.Mux (World run)
variable {σ : Type} {env : Env} {c : Codec} {x : Ext} {other : Str → Str} {ci : Bool}

/-- The middleware hands responses on as they are. -/
def LetsThrough (m : AHandler σ → AHandler σ) : Prop :=
  ∀ h vars ctx req s a s', h vars ctx req s = (.ret (some a) none, s') → m h vars ctx req s = (.ret (some a) none, s')

theorem through {ms : List (Option (AHandler σ → AHandler σ))} (hms : ∀ m, some m ∈ ms → LetsThrough m) {h : AHandler σ} {vars ctx req s a s'}
    (hh : h vars ctx req s = (.ret (some a) none, s')) : wrapAll h ms vars ctx req s = (.ret (some a) none, s') := by
  induction ms with
  | nil => exact hh
  | cons m ms ih =>
    have ih := ih fun m hm => hms m (by simp [hm])
    cases m with
    | none => exact ih
    | some m => exact hms m (by simp) _ _ _ _ _ _ _ ih

/-- The two routes of a login. -/
theorem login_routes_wrapped {cfg : OAuth.Config σ} {v : Nat} {initiatePath basePath : Str} {ims cms : List (Option (AHandler (LoginState σ) → AHandler (LoginState σ)))}
    {pre post : List (Mux.Op (AHandler (LoginState σ)))} {h : AHandler (LoginState σ)}
    {ops : List (Mux.Op (AHandler (LoginState σ)))} {P : Str} (hP : P = prefixAt pre.reverse v)
    (hp : ops = withLogin cfg v P initiatePath basePath ims cms pre post h) (hv : v < count pre.reverse) :
    (⟨b!"GET", joinPath P initiatePath, wrapAll (wrapAll (initiateIn cfg (joinPath P basePath)) ims) (commonAt pre.reverse v)⟩ : Mux.Route _) ∈ routesMade ops.reverse ∧
    (⟨b!"GET", joinPath P (basePath ++ b!"/{providerName}"), wrapAll (wrapAll (callbackIn cfg (joinPath P basePath) h) cms) (commonAt pre.reverse v)⟩ : Mux.Route _) ∈
      routesMade ops.reverse := by
  have hr : ops.reverse = post.reverse ++ ((loginOps cfg v P initiatePath basePath h ims cms).reverse ++ pre.reverse) := by
    rw [hp]; simp
  rw [hr]
  constructor <;> refine routesMade_mem ?_ _ <;>
    simp [loginOps, Mux.oauthOps, routesMade, count, hv, prefixAt, commonAt, resolvePath_eq, ← hP]

/-- C80 for an application whose login stands behind middlewares of its own and common ones, all of which hand responses on as they are (such as `PanicRecover` and
`ErrJsonResponse`), with whatever routes before and after those of the login: an initiate request that only the initiate route is for is refused by the
initiate handler, or answered with a redirect to one of the providers; then, after any requests that were not given the same random text, a request
for the path of the redirect URI that only the callback route is for, with the state before it expires and a code that the provider redeems, gets the
response of the user's handler, run with the provider's token. -/
theorem c80_behind_partial (hl : FoldLaws x.eqFold) (cfg : OAuth.Config σ) (v : Nat) (initiatePath basePath : Str)
    {ims cms : List (Option (AHandler (LoginState σ) → AHandler (LoginState σ)))}
    {pre post : List (Mux.Op (AHandler (LoginState σ)))} {h : AHandler (LoginState σ)} {ops : List (Mux.Op (AHandler (LoginState σ)))}
    {P : Str} (hP : P = prefixAt pre.reverse v) (hp : ops = withLogin cfg v P initiatePath basePath ims cms pre post h)
    (hv : v < count pre.reverse) {common : List (Option (AHandler (LoginState σ) → AHandler (LoginState σ)))} (hcommon : common = commonAt pre.reverse v)
    (hthrough : ∀ m, some m ∈ ims ++ cms ++ common → LetsThrough m)
    {r : Router} (hload : load x other (newRouter ci) 0 (run World.init ops).routes = some r)
    (hplain : ∀ p ∈ patternsOf x ci (routesMade ops.reverse), (∀ seg ∈ p.segments, Plain ci seg) ∧ (pieces p.raw).length < 256 ∧ StarsLast p.segments ∧
      (p.segments.length ≤ 18 ∨ ∀ s ∈ p.segments, s.kind ≠ .multiple))
    (hfew : (routesMade ops.reverse).length < 65536) (hms : ∀ rt ∈ routesMade ops.reverse, Ascii rt.method)
    {buf : List USeg} (hb : buf.length = 19)
    -- the initiate request
    (q₁ : AReq) (hm₁ : SameMethod b!"GET" q₁.req.method) (ha₁ : Ascii q₁.req.method) (hlen₁ : q₁.path.length ≤ 65535) (hf₁ : Fits q₁.path)
    (hfaith₁ : Faithful ci (patternsOf x ci (routesMade ops.reverse)) (segmentsOf q₁.path))
    (hpre₁ : ∀ p ∈ patternsOf x ci (routesMade ops.reverse), ∀ k, 0 < k → k < p.segments.length → ¬ Describes x ci (p.segments.take k) (segmentsOf q₁.path))
    {pi : Pattern} (hpi : parsePattern x ci (joinPath P initiatePath) = .ok pi) (hd₁ : Describes x ci pi.segments (segmentsOf q₁.path))
    (honly₁ : ∀ rt ∈ routesMade ops.reverse, ∀ vars, Serves x ci rt q₁.req.method q₁.path vars →
      rt = ⟨b!"GET", joinPath P initiatePath, wrapAll (wrapAll (initiateIn cfg (joinPath P basePath)) ims) common⟩)
    (t₁ : Int) (st : Str) (w : LoginState σ)
    -- everything else leaves the state alone
    (hops : ∀ t, ∀ op ∈ pre ++ post, OpKeeps (Keeping st t) op) (hmk : ∀ t, ∀ m ∈ ims ++ cms, KeepsP (Keeping st t) m) (hh : ∀ t, Keeping st t h) :
    ∃ f₁ res₁ w₁, (∀ g, f₁ ≤ g → serveApp (c := c) x other env r ((run World.init ops).routes.map (·.handler)) q₁ buf g { w with now := t₁, rnd := st } = some (res₁, w₁)) ∧
      ((∃ msg vars, initiateIn cfg (joinPath P basePath) vars {} q₁.req { w with now := t₁, rnd := st } = (.ret none (some (.badRequest msg)), { w with now := t₁, rnd := st })) ∨
        ∃ p ∈ cfg.providers, res₁ = deliver env (shown q₁) (.ret (some (.resp (.redirect { status := 302 }
              (p.initiateUrl (cfg.websiteUrl ++ joinPath P basePath ++ b!"/" ++ p.name) st cfg.fetchUserDetails)))) none) ∧
          ∀ (hist : List (AReq × Int × Str)) (fuel : Nat) (l : List (WRes c)) (w₂ : LoginState σ), (∀ e ∈ hist, e.2.2 ≠ st) →
            serveLogins (c := c) x other env r ((run World.init ops).routes.map (·.handler)) buf fuel hist w₁ = some (l, w₂) →
          ∀ (q₂ : AReq) (t₂ : Int) (rnd : Str) (pc : Pattern), SameMethod b!"GET" q₂.req.method → Ascii q₂.req.method → q₂.path.length ≤ 65535 →
            parsePattern x ci (joinPath P (basePath ++ b!"/{providerName}")) = .ok pc → (pieces (joinPath P (basePath ++ b!"/{providerName}"))).length ≤ 19 →
            (∀ s ∈ pc.segments.dropLast, s.kind = .literal ∧ s.val ≠ b!"..") → p.name ≠ [] → slash ∉ p.name → p.name ≠ b!".." →
            q₂.path = joinPath P basePath ++ b!"/" ++ p.name →
            Faithful ci (patternsOf x ci (routesMade ops.reverse)) (segmentsOf q₂.path) →
            (∀ p ∈ patternsOf x ci (routesMade ops.reverse), ∀ k, 0 < k → k < p.segments.length → ¬ Describes x ci (p.segments.take k) (segmentsOf q₂.path)) →
            (∀ rt ∈ routesMade ops.reverse, ∀ vars, Serves x ci rt q₂.req.method q₂.path vars →
              rt = ⟨b!"GET", joinPath P (basePath ++ b!"/{providerName}"), wrapAll (wrapAll (callbackIn cfg (joinPath P basePath) h) cms) common⟩) →
            t₂ < t₁ + cfg.keyExpiration → given q₂.req b!"error" = [] → given q₂.req b!"state" = st →
          ∀ tok s₁, p.fetchToken (cfg.websiteUrl ++ joinPath P basePath ++ b!"/" ++ p.name) (given q₂.req b!"code") w₂.rest = (.ok tok, s₁) →
            ∃ f₂ vars, vars b!"providerName" = some p.name ∧
              (∀ a w₃, cfg.fetchUserDetails = false → h vars { token := some tok.accessToken } q₂.req { w₂ with now := t₂, rnd := rnd, rest := s₁ } = (.ret (some a) none, w₃) →
                ∀ g, f₂ ≤ g → serveApp (c := c) x other env r ((run World.init ops).routes.map (·.handler)) q₂ buf g { w₂ with now := t₂, rnd := rnd } =
                  some (deliver env (shown q₂) (.ret (some a) none), w₃)) ∧
              ∀ u s₂ a w₃, cfg.fetchUserDetails = true → p.fetchUser tok s₁ = (.ok u, s₂) →
                h vars { token := some tok.accessToken, principal := some (Context.userPrincipal u) } q₂.req { w₂ with now := t₂, rnd := rnd, rest := s₂ } = (.ret (some a) none, w₃) →
                ∀ g, f₂ ≤ g → serveApp (c := c) x other env r ((run World.init ops).routes.map (·.handler)) q₂ buf g { w₂ with now := t₂, rnd := rnd } =
                  some (deliver env (shown q₂) (.ret (some a) none), w₃)) := by
  subst hcommon
  obtain ⟨hri, hrc⟩ := login_routes_wrapped hP hp hv
  have ht₁ : ∀ {a} {k : AHandler (LoginState σ)} {vars ctx req s s'}, k vars ctx req s = (.ret (some a) none, s') →
      wrapAll (wrapAll k ims) (commonAt pre.reverse v) vars ctx req s = (.ret (some a) none, s') := fun h =>
    through (fun m hm => hthrough m (by simp [hm])) (through (fun m hm => hthrough m (by simp [hm])) h)
  have ht₂ : ∀ {a} {k : AHandler (LoginState σ)} {vars ctx req s s'}, k vars ctx req s = (.ret (some a) none, s') →
      wrapAll (wrapAll k cms) (commonAt pre.reverse v) vars ctx req s = (.ret (some a) none, s') := fun h =>
    through (fun m hm => hthrough m (by simp [hm])) (through (fun m hm => hthrough m (by simp [hm])) h)
  have hserves : ∀ {path pat : Str} {p0 : Pattern} {q : AReq} {k : AHandler (LoginState σ)}, parsePattern x ci pat = .ok p0 → Describes x ci p0.segments (segmentsOf path) →
      SameMethod b!"GET" q.req.method → ∃ vars, Serves x ci ⟨b!"GET", pat, k⟩ q.req.method path vars := by
    intro path pat p0 q k h1 ⟨bs, h2⟩ h3
    exact ⟨_, h3, p0, bs, h1, h2, fun _ => rfl⟩
  obtain ⟨f₁, res₁, e1, e2⟩ := c126_served_partial (c := c) (env := env) hl ops hload hplain hfew q₁ ha₁ hms hb hlen₁ hf₁ hfaith₁ hpre₁ { w with now := t₁, rnd := st }
  rcases e2 with ⟨e2, _⟩ | ⟨rt, hrt, vars, hs, e2⟩
  · obtain ⟨vars, hs⟩ := hserves (q := q₁) hpi hd₁ hm₁
    exact absurd ⟨_, hri, vars, hs⟩ e2
  have := honly₁ rt hrt vars hs
  subst this
  refine ⟨f₁, res₁.1, res₁.2, fun g hg => e1 g hg, ?_⟩
  subst e2
  have hredir : ∀ p, OAuth.redirectUrl cfg (joinPath P basePath) p = cfg.websiteUrl ++ joinPath P basePath ++ b!"/" ++ p.name := fun p => by simp [OAuth.redirectUrl]
  rcases c80_initiate cfg (joinPath P basePath) (fun n => some (vars n)) {} q₁.req { w with now := t₁, rnd := st } with ⟨msg, hi, _⟩ | ⟨p, hpm, cache', hi, -, hfirst, hlive, -⟩
  · exact .inl ⟨msg, _, hi⟩
  · have hw := ht₁ hi
    refine .inr ⟨p, hpm, by simp only [hw], ?_⟩
    simp only [hw]
    intro hist fuel l w₂ hno hserved q₂ t₂ rnd pc hm₂ ha₂ hlen₂ hpc h19 hlit hn1 hn2 hn3 hpath hfaith₂ hpre₂ honly₂ ht herr hst tok s₁ htok
    have hlive₂ : Live w₂.cache t₂ st := by
      refine c80_lasts (c := c) (x := x) (other := other) (env := env) cfg v P initiatePath basePath (ims := ims) (cms := cms) (pre := pre) (post := post) h [] none (fun _ => h)
        (by rw [hp]; rfl) (hops t₂) (hmk t₂) (hh t₂) (fun _ => hh t₂) hist hno ?_ hserved
      exact (hlive t₂).2 ht
    have hcb : joinPath P (basePath ++ b!"/{providerName}") = OAuth.callbackPattern P basePath := (resolvePath_eq _ _).symm
    obtain ⟨ls, g1, g2, g3, g4⟩ := callback_segments (by rw [← hcb]; exact hpc) (by rw [← hcb]; exact h19) hlit hn1 hn2 hn3
    have hpath' : q₂.path = Mux.resolvePath P basePath ++ slash :: p.name := by rw [hpath, resolvePath_eq]; simp
    rw [← hpath'] at g3 g4
    have hd₂ : Describes x ci pc.segments (segmentsOf q₂.path) := by
      rw [g1, g3]; exact callback_describes g2
    obtain ⟨f₂, res₂, d1, d2⟩ := c126_served_partial (c := c) (env := env) hl ops hload hplain hfew q₂ ha₂ hms hb hlen₂ g4 hfaith₂ hpre₂ { w₂ with now := t₂, rnd := rnd }
    rcases d2 with ⟨d2, _⟩ | ⟨rt, hrt, vars', hs', d2⟩
    · obtain ⟨vars, hs⟩ := hserves (q := q₂) hpc hd₂ hm₂
      exact absurd ⟨_, hrc, vars, hs⟩ d2
    have := honly₂ rt hrt vars' hs'
    subst this
    have hname : vars' b!"providerName" = p.name := by
      obtain ⟨p0, bs, i1, i2, i3⟩ := hs'.described
      rw [hpc] at i1
      cases i1
      rw [i3, g1]
      rw [g1, g3] at i2
      rw [callback_value g2 i2]
      rfl
    have hrun := callbackIn_runs cfg (joinPath P basePath) (vars := fun n => some (vars' n)) (ctx := {}) (req := q₂.req) (w := { w₂ with now := t₂, rnd := rnd }) (p := p)
      (congrArg some hname) (byName_of_first hfirst) herr (by rw [hst]; exact hlive₂) htok h
    refine ⟨f₂, fun n => some (vars' n), congrArg some hname, ?_, ?_⟩
    · intro a w₃ hf hha g hg
      rw [d1 g hg, d2]
      simp only [ht₂ ((hrun.1 hf).trans hha)]
    · intro u s₂ a w₃ hf hu hha g hg
      rw [d1 g hg, d2]
      simp only [ht₂ ((hrun.2 u s₂ hf hu).trans hha)]

/-- `ErrJsonResponse` hands responses on. -/
theorem through_errJson (quote : Str → Str) : LetsThrough (lift (errJsonResponse quote) : AHandler σ → AHandler σ) := by
  intro h vars ctx req s a s' hh
  simp [lift, errJsonResponse, errResponse, hh]

/-- `PanicRecover` hands responses on. -/
theorem through_recover (stack : Str) : LetsThrough (lift (panicRecover stack) : AHandler σ → AHandler σ) := by
  intro h vars ctx req s a s' hh
  simp [lift, panicRecover, hh]

/-- The application `clubhouse` with `ErrJsonResponse` as common middleware and `PanicRecover` around the callback. -/
def guardedHouse : List (Mux.Op (AHandler (LoginState (List Str)))) :=
  withLogin hubConfig 0 [] b!"/oauth/initiate" b!"/oauth/authorize" [] [some (lift (panicRecover b!"trace"))] [.common 0 [some (lift (errJsonResponse id))]]
    [Mux.handleGet 0 b!"/news" tokenShower []] tokenShower

theorem keeping_recover (st : Str) (t : Int) : KeepsP (Keeping (σ := σ) st t) (some (lift (panicRecover b!"trace"))) := by
  intro h hh vars ctx req w hn hr
  have := hh vars ctx req w hn hr
  simp only [lift, panicRecover]
  split <;> rename_i e <;> rw [e] at this <;> exact this

theorem keeping_errJson (st : Str) (t : Int) : KeepsP (Keeping (σ := σ) st t) (some (lift (errJsonResponse id))) := by
  intro h hh vars ctx req w hn hr
  have := hh vars ctx req w hn hr
  simp only [lift, errJsonResponse, errResponse]
  split
  · rename_i e; rw [e] at this; exact this
  · exact this

/-- The hypotheses of `c80_behind_partial` that speak of middlewares hold for it, its patterns are those of `clubhouse`, for which the others hold; it starts, and
a login goes through. -/
example (st : Str) : (∀ m, some m ∈ [] ++ [some (lift (panicRecover b!"trace"))] ++ commonAt [.common 0 [some (lift (errJsonResponse id))]] 0 →
      LetsThrough (σ := LoginState (List Str)) m) ∧
    (∀ t, ∀ m ∈ [] ++ [some (lift (panicRecover b!"trace"))], KeepsP (Keeping (σ := List Str) st t) m) ∧
    (∀ t, ∀ op ∈ [.common 0 [some (lift (errJsonResponse id))]] ++ [Mux.handleGet 0 b!"/news" tokenShower []], OpKeeps (Keeping st t) op) ∧
    patternsOf plainExt false (routesMade guardedHouse.reverse) = patternsOf plainExt false (routesMade clubhouse.reverse) ∧
    (load plainExt id (newRouter false) 0 (run World.init guardedHouse).routes).isSome = true ∧
    triedLogins (run World.init guardedHouse).routes
      [({ req := { method := b!"GET" }, path := b!"/oauth/initiate" }, 1, b!"S1"),
        ({ req := { method := b!"GET" }, path := b!"/news" }, 2, b!"S2"),
        ({ req := { method := b!"GET", form := [(b!"state", [b!"S1"]), (b!"code", [b!"good"])] }, path := b!"/oauth/authorize/hub" }, 3, b!"S3")] 40 =
      some ([[302], [200], [200]], [b!"none", b!"T"]) := by
  refine ⟨?_, ?_, ?_, by decide +kernel, by decide +kernel, by decide +kernel⟩
  · intro m hm
    have e : commonAt [.common 0 [some (lift (errJsonResponse id))]] 0 = [some (lift (errJsonResponse id) : AHandler (LoginState (List Str)) → _)] := rfl
    rw [e] at hm
    simp only [List.nil_append, List.cons_append, List.mem_cons, List.not_mem_nil, or_false, Option.some.injEq] at hm
    rcases hm with rfl | rfl
    · exact through_recover _
    · exact through_errJson _
  · intro t m hm
    simp only [List.nil_append, List.mem_singleton] at hm
    subst hm
    exact keeping_recover st t
  · intro t op hop
    simp only [List.cons_append, List.nil_append, List.mem_cons, List.not_mem_nil, or_false] at hop
    rcases hop with rfl | rfl
    · intro m hm
      simp only [List.mem_singleton] at hm
      subst hm
      exact keeping_errJson st t
    · exact ⟨fun _ _ _ _ hn _ => hn, by simp⟩

end Gofre.Props
