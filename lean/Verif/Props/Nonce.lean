import Verif.Spec.Nonce
import Verif.Props.App
import Verif.Props.Csrf

/-! # C128, C129: the CSRF middleware in a whole application -/

namespace Gofre.Props
open Gofre.Http Gofre.Response Gofre.Spec Gofre.Serve Gofre.Path Gofre.MW Gofre.Stack Gofre.App
open Gofre.Mux (World run)
variable {σ : Type} {env : Env} {c : Codec} {quote : Str → Str} {x : Ext} {other : Str → Str} {ci : Bool}

/-- The middleware of an application does what the middleware on its own does, around handlers
that leave the cache alone. -/
theorem csrfIn_csrf {ρ : Type} (param header : Str) (h : Handler σ ρ) (ctx : Ctx) (req : Req) (w : CsrfState σ) :
    csrfIn param header (fun ctx req w => ((h ctx req w.rest).1, { w with rest := (h ctx req w.rest).2 })) ctx req w =
      ((Csrf.csrf param header w.env h ctx req w.cache w.rest).1,
        { w with cache := (Csrf.csrf param header w.env h ctx req w.cache w.rest).2.1, rest := (Csrf.csrf param header w.env h ctx req w.cache w.rest).2.2 }) := by
  have key : ∀ cache, csrfIssue (fun ctx req w => ((h ctx req w.rest).1, { w with rest := (h ctx req w.rest).2 })) ctx req { w with cache := cache } =
      ((Csrf.issue w.env h ctx req cache w.rest).1,
        { w with cache := (Csrf.issue w.env h ctx req cache w.rest).2.1, rest := (Csrf.issue w.env h ctx req cache w.rest).2.2 }) := by
    intro cache
    unfold csrfIssue Csrf.issue
    dsimp only
    cases w.env.rnd <;> rfl
  unfold csrfIn Csrf.csrf
  split
  · exact key w.cache
  · dsimp only
    split
    · rfl
    · exact key _

/-! ### Properties of handlers that all of an application has -/

section
variable {H : Type}

theorem wrapAll_keeps {P : H → Prop} {ms : List (Option (H → H))} (hm : ∀ m ∈ ms, KeepsP P m) {h : H} (hh : P h) : P (wrapAll h ms) := by
  induction ms with
  | nil => exact hh
  | cons m ms ih =>
    have := ih fun m h => hm m (by simp [h])
    cases m with
    | none => exact this
    | some f => exact hm (some f) (by simp) _ this

/-- All muxes have the middlewares and others which keep the property; all routes are wrapped by them around something with the property, or are
excused and have the property. -/
structure AllWith (P : H → Prop) (ms : List (Option (H → H))) (ok : Mux.Route H → Prop) (w : World H) : Prop where
  muxes : ∀ m ∈ w.muxes, ∃ rest, m.common = ms ++ rest ∧ ∀ f ∈ rest, KeepsP P f
  routes : ∀ r ∈ w.routes, (∃ k, P k ∧ r.handler = wrapAll k ms) ∨ (ok r ∧ P r.handler)

theorem with_step {P : H → Prop} {ms : List (Option (H → H))} {ok : Mux.Route H → Prop} {w : World H} (hw : AllWith P ms ok w) (op : Mux.Op H)
    (hop : OpKeeps P op) (hd : ∀ v d, op = .debug v d → ∀ pre, ∀ e ∈ debugNames d, ok ⟨b!"GET", joinPath pre e.1, e.2⟩) :
    AllWith P ms ok (Mux.step w op) := by
  cases op with
  | debug v d =>
    simp only [Mux.step]
    split
    · exact hw
    · rename_i i m hm
      refine ⟨hw.muxes, ?_⟩
      intro r hr
      rcases List.mem_append.1 hr with hr | hr
      · exact hw.routes r hr
      · obtain ⟨e, he, rfl⟩ := List.mem_map.1 hr
        rw [resolvePath_eq]
        refine .inr ⟨hd v d rfl _ e (by simpa [Mux.debugTable, debugNames] using he), ?_⟩
        obtain ⟨h1, h2, h3, h4, h5, h6⟩ := hop
        simp only [Mux.debugTable, List.mem_cons, List.not_mem_nil, or_false] at he
        rcases he with rfl | rfl | rfl | rfl | rfl | rfl | rfl | rfl | rfl | rfl | rfl | rfl <;> assumption
  | clone v =>
    simp only [Mux.step]
    split
    · exact hw
    · rename_i i m hm
      refine ⟨?_, hw.routes⟩
      intro n hn
      rcases List.mem_append.1 hn with hn | hn
      · exact hw.muxes n hn
      · simp only [List.mem_singleton] at hn
        subst hn
        exact hw.muxes m (deref_mem hm)
  | sub v p =>
    simp only [Mux.step]
    split
    · exact hw
    · rename_i i m hm
      split
      · exact ⟨hw.muxes, hw.routes⟩
      · refine ⟨?_, hw.routes⟩
        intro n hn
        rcases List.mem_append.1 hn with hn | hn
        · exact hw.muxes n hn
        · simp only [List.mem_singleton] at hn
          subst hn
          exact hw.muxes m (deref_mem hm)
  | common v ns =>
    simp only [Mux.step]
    split
    · exact hw
    · rename_i i m hm
      refine ⟨?_, hw.routes⟩
      intro n hn
      rcases List.mem_or_eq_of_mem_set hn with hn | hn
      · exact hw.muxes n hn
      · subst hn
        obtain ⟨rest, h1, h2⟩ := hw.muxes m (deref_mem hm)
        refine ⟨rest ++ ns, by simp [h1], fun f hf => ?_⟩
        rcases List.mem_append.1 hf with hf | hf
        · exact h2 f hf
        · exact hop f hf
  | handle v method path h own =>
    simp only [Mux.step]
    split
    · exact hw
    · rename_i i m hm
      refine ⟨hw.muxes, ?_⟩
      intro r hr
      rcases List.mem_append.1 hr with hr | hr
      · exact hw.routes r hr
      · simp only [List.mem_singleton] at hr
        subst hr
        obtain ⟨rest, he, h2⟩ := hw.muxes m (deref_mem hm)
        exact .inl ⟨wrapAll (wrapAll h own) rest, wrapAll_keeps h2 (wrapAll_keeps hop.2 hop.1),
          by rw [wrapMiddleware_eq, wrapMiddleware_eq, he, wrapAll_append]⟩

theorem guarded_with {P : H → Prop} (cfg : Str) (res : Option Str) (files : Str → H) (ms : List (Option (H → H))) (ops : List (Mux.Op H))
    (hfiles : ∀ p, P (files p)) (hops : ∀ op ∈ ops, OpKeeps P op) :
    ∀ r ∈ (run (World.new cfg res files) (.common 0 ms :: ops)).routes,
      (∃ k, P k ∧ r.handler = wrapAll k ms) ∨ ((AssetsRoute cfg res files r ∨ DebugRoute ops r) ∧ P r.handler) := by
  have h0 : AllWith P ms (fun r => AssetsRoute cfg res files r ∨ DebugRoute ops r) (Mux.step (World.new cfg res files) (.common 0 ms)) := by
    refine ⟨?_, ?_⟩
    · intro m hm
      simp [Mux.step, World.new, World.init, World.deref] at hm
      subst hm
      exact ⟨[], by simp, by simp⟩
    · intro r hr
      cases res with
      | none => simp [Mux.step, World.new, World.init, World.deref] at hr
      | some mapping =>
        simp [Mux.step, World.new, World.init, World.deref] at hr
        exact .inr ⟨.inl ⟨mapping, rfl, hr⟩, by rw [hr]; exact hfiles _⟩
  suffices h : ∀ (rest : List (Mux.Op H)) (w : World H), (∀ op ∈ rest, op ∈ ops) → AllWith P ms (fun r => AssetsRoute cfg res files r ∨ DebugRoute ops r) w →
      AllWith P ms (fun r => AssetsRoute cfg res files r ∨ DebugRoute ops r) (run w rest) from
    (h ops _ (fun _ h => h) h0).routes
  intro rest
  induction rest with
  | nil => intro w _ hw; exact hw
  | cons op rest ih =>
    intro w hsub hw
    refine ih _ (fun o ho => hsub o (List.mem_cons_of_mem _ ho)) (with_step hw op (hops op (hsub op List.mem_cons_self)) ?_)
    rintro v d rfl pre e he
    exact .inr ⟨v, d, pre, e, hsub _ List.mem_cons_self, he, rfl⟩

end

/-! ### C128 -/

/-- The two common middlewares of the application. -/
def csrfGuards (quote : Str → Str) (param header : Str) : List (Option (AHandler (CsrfState σ) → AHandler (CsrfState σ))) :=
  [some (lift (errJsonResponse quote)), some (lift (csrfIn param header))]

/-- The client is told 403 with the documented JSON; nothing has changed. -/
def Refused (env : Env) (quote : Str → Str) (w : CsrfState σ) (res : WRes c × CsrfState σ) : Prop :=
  res.2 = w ∧ ∃ msg w', Says .accessDenied msg ∧ res.1 = .ret true w' ∧
    Sent env w'.base.out { status := 403, type := b!"application/json", body := b!"{\"error\":" ++ quote msg ++ b!"}" }

/-- Nothing behind the middleware ran: matching crashed, no route was found, a file or a debug page was
served, or the request was refused. -/
def Outside (env : Env) (quote : Str → Str) (cfg : Str) (assets : Option Str) (files : Str → AHandler (CsrfState σ)) (ops : List (Mux.Op (AHandler (CsrfState σ))))
    (q : AReq) (w : CsrfState σ) (res : WRes c × CsrfState σ) : Prop :=
  res = (.panic {}, w) ∨ res = (bare 404, w) ∨
    (∃ rt vars, (AssetsRoute cfg assets files rt ∨ DebugRoute ops rt) ∧
      res = (deliver env (shown q) (rt.handler vars {} q.req w).1, (rt.handler vars {} q.req w).2)) ∨
    Refused env quote w res

theorem csrfIn_refuses {param header : Str} (h : Handler (CsrfState σ) MResp) (ctx : Ctx) {req : Req} {w : CsrfState σ} (hm : ¬ SafeMethod req.method)
    (hn : ¬ ∃ n, Carries param header req n ∧ Cache.contains w.cache w.env.tCheck n = true) :
    csrfIn param header h ctx req w = (.ret none (some .accessDenied), w) := by
  have hs : Csrf.skipCheck req.method = false := by
    cases hk : Csrf.skipCheck req.method with
    | false => rfl
    | true => exact absurd ((skipCheck_iff _).1 hk) hm
  simp only [csrfIn, hs, Bool.false_eq_true, if_false]
  rw [if_pos]
  by_cases h0 : Csrf.previousNonce param header req = []
  · simp [h0]
  · simp only [Bool.or_eq_true, decide_eq_true_eq, Bool.not_eq_true', h0, false_or]
    cases hc : Cache.contains w.cache w.env.tCheck (Csrf.previousNonce param header req) with
    | false => rfl
    | true => exact absurd ⟨_, (previousNonce_iff _ _ _ _ h0).1 rfl, hc⟩ hn

/-- `ErrJsonResponse` changes the answer only. -/
theorem errJson_state (h : Handler σ MResp) (ctx : Ctx) (req : Req) (s : σ) :
    (errJsonResponse quote h ctx req s).2 = (h ctx req s).2 := by
  unfold errJsonResponse errResponse
  rcases h ctx req s with ⟨res, s'⟩
  cases res with
  | ret r e => cases e <;> rfl
  | panic v => rfl

/-- C128: behind `ErrJsonResponse` and the CSRF middleware, given to the first mux before anything else, a request with
a state-changing method which does not carry a live nonce runs nothing of the application, whatever else the
program registers and wherever: it is answered with 403 as JSON (or 404, or by the assets or a debug endpoint, or
matching crashes), and neither the cache nor anything else changes. -/
theorem c128_refused (he : Orders env) (param header cfg : Str) (assets : Option Str) (files : Str → AHandler (CsrfState σ))
    (ops : List (Mux.Op (AHandler (CsrfState σ)))) {r : Router} {rts : List (Mux.Route (AHandler (CsrfState σ)))}
    (hrts : rts = (run (World.new cfg assets files) (.common 0 (csrfGuards quote param header) :: ops)).routes)
    (hload : load x other (newRouter ci) 0 rts = some r)
    (q : AReq) {buf : List USeg} (hb : buf.length = 19) (w : CsrfState σ)
    (hm : ¬ SafeMethod q.req.method) (hn : ¬ ∃ n, Carries param header q.req n ∧ Cache.contains w.cache w.env.tCheck n = true) :
    ∃ f res, (∀ g, f ≤ g → serveApp (c := c) x other env r (rts.map (·.handler)) q buf g w = some res) ∧
      Outside env quote cfg assets files ops q w res := by
  obtain ⟨f, res, h1, h2⟩ := app_cases (c := c) (env := env) hload q hb w
  refine ⟨f, res, h1, ?_⟩
  rcases h2 with ⟨h2, _⟩ | ⟨m, ps, ans, _, _, _, _, _, h2⟩
  · exact .inr (.inl h2)
  rcases h2 with ⟨_, h2⟩ | ⟨_, h2⟩ | ⟨p, labels, _, rt, hrt, hmeth, p0, k, segs, _, _, _, h2⟩
  · exact .inl h2
  · exact .inr (.inl h2)
  right; right
  rw [hrts] at hrt
  rcases c81_exact cfg assets files _ ops rt hrt with ⟨k, hk⟩ | hopen
  case inr => exact .inl ⟨rt, _, hopen, h2⟩
  right
  generalize pathVarText q.path p labels segs = vars at h2
  obtain ⟨code, msg, w', d1, d2, d3, d4, d5⟩ := (c89_json_error (c := c) (quote := quote) he _ {} q.req (shown q) w).1 none _ _
    (csrfIn_refuses (k vars) {} hm hn)
  have hh : rt.handler vars = errJsonResponse quote (csrfIn param header (k vars)) := by
    rw [hk]; rfl
  rw [h2, ranWith, hh]
  cases d1
  exact ⟨d3, msg, w', d2, d4, d5⟩

/-- C128 for every request without a live nonce, whatever its method: no route registered with `HandlePost`, `HandlePut`, `HandlePatch` or
`HandleDelete` is run by it. -/
theorem c128_verbs (he : Orders env) (param header cfg : Str) (assets : Option Str) (files : Str → AHandler (CsrfState σ))
    (ops : List (Mux.Op (AHandler (CsrfState σ)))) {r : Router} {rts : List (Mux.Route (AHandler (CsrfState σ)))}
    (hrts : rts = (run (World.new cfg assets files) (.common 0 (csrfGuards quote param header) :: ops)).routes)
    (hload : load x other (newRouter ci) 0 rts = some r)
    (q : AReq) {buf : List USeg} (hb : buf.length = 19) (w : CsrfState σ)
    (hn : ¬ ∃ n, Carries param header q.req n ∧ Cache.contains w.cache w.env.tCheck n = true) :
    ∃ f res, (∀ g, f ≤ g → serveApp (c := c) x other env r (rts.map (·.handler)) q buf g w = some res) ∧
      (Outside env quote cfg assets files ops q w res ∨
        ∃ rt vars, rt ∈ rts ∧ (∀ v : Verb, rt.method = v.name → v = .get) ∧
          res = (deliver env (shown q) (rt.handler vars {} q.req w).1, (rt.handler vars {} q.req w).2)) := by
  by_cases hm : SafeMethod q.req.method
  case neg =>
    obtain ⟨f, res, h1, h2⟩ := c128_refused (c := c) he param header cfg assets files ops hrts hload q hb w hm hn
    exact ⟨f, res, h1, .inl h2⟩
  obtain ⟨f, res, h1, h2⟩ := app_cases (c := c) (env := env) hload q hb w
  refine ⟨f, res, h1, ?_⟩
  rcases h2 with ⟨h2, _⟩ | ⟨m, ps, ans, _, _, _, _, _, h2⟩
  · exact .inl (.inr (.inl h2))
  rcases h2 with ⟨_, h2⟩ | ⟨_, h2⟩ | ⟨p, labels, _, rt, hrt, hmeth, p0, k, segs, _, _, _, h2⟩
  · exact .inl (.inl h2)
  · exact .inl (.inr (.inl h2))
  right
  refine ⟨rt, _, hrt, fun v hv => ?_, h2⟩
  have hu : toUpper other v.name = v.name := by cases v <;> rfl
  have hu2 : toUpper other q.req.method = q.req.method := by
    simp only [SafeMethod, List.mem_cons, List.not_mem_nil, or_false] at hm
    rcases hm with hm | hm | hm | hm <;> rw [hm] <;> rfl
  rw [hv, hu, hu2] at hmeth
  rw [← hmeth] at hm
  cases v <;> first | rfl | exact absurd hm (by decide)

/-- C128, the accepting side: with a live nonce the chain behind the middleware runs, the nonce being spent and a fresh one, good for an hour, shown
to it; when it returns no error the client gets its answer. -/
theorem c128_accepted (param header cfg : Str) (assets : Option Str) (files : Str → AHandler (CsrfState σ))
    (ops : List (Mux.Op (AHandler (CsrfState σ)))) {r : Router} {rts : List (Mux.Route (AHandler (CsrfState σ)))}
    (hrts : rts = (run (World.new cfg assets files) (.common 0 (csrfGuards quote param header) :: ops)).routes)
    (hload : load x other (newRouter ci) 0 rts = some r)
    (q : AReq) {buf : List USeg} (hb : buf.length = 19) (w : CsrfState σ)
    (hm : ¬ SafeMethod q.req.method) {n : Str} (hn : Carries param header q.req n) (hc : Cache.contains w.cache w.env.tCheck n = true)
    {bytes : List UInt8} (hr : w.env.rnd = some bytes) :
    ∃ f res, (∀ g, f ≤ g → serveApp (c := c) x other env r (rts.map (·.handler)) q buf g w = some res) ∧
      (res = (.panic {}, w) ∨ res = (bare 404, w) ∨
        (∃ rt vars, (AssetsRoute cfg assets files rt ∨ DebugRoute ops rt) ∧
          res = (deliver env (shown q) (rt.handler vars {} q.req w).1, (rt.handler vars {} q.req w).2)) ∨
        ∃ rt ∈ rts, ∃ k vars, rt.handler = wrapAll k (csrfGuards quote param header) ∧ ∃ out w',
          k vars { nonce := some (Csrf.hex bytes) } q.req { w with cache := Cache.add (Cache.remove w.cache n) w.env.tAdd (Csrf.hex bytes) anHour } = (out, w') ∧
          res.2 = w' ∧ ∀ a, out = .ret a none → res.1 = deliver env (shown q) out) := by
  obtain ⟨f, res, h1, h2⟩ := app_cases (c := c) (env := env) hload q hb w
  refine ⟨f, res, h1, ?_⟩
  rcases h2 with ⟨h2, _⟩ | ⟨m, ps, ans, _, _, _, _, _, h2⟩
  · exact .inr (.inl h2)
  rcases h2 with ⟨_, h2⟩ | ⟨_, h2⟩ | ⟨p, labels, _, rt, hrt, hmeth, p0, k, segs, _, _, _, h2⟩
  · exact .inl h2
  · exact .inr (.inl h2)
  right; right
  have hrt' := hrt
  rw [hrts] at hrt
  rcases c81_exact cfg assets files _ ops rt hrt with ⟨k, hk⟩ | hopen
  case inr => exact .inl ⟨rt, _, hopen, h2⟩
  right
  generalize pathVarText q.path p labels segs = vars at h2
  have hs : Csrf.skipCheck q.req.method = false := by
    cases hk : Csrf.skipCheck q.req.method with
    | false => rfl
    | true => exact absurd ((skipCheck_iff _).1 hk) hm
  have hne : n ≠ [] := by cases hn <;> assumption
  have hp := (previousNonce_iff param header q.req n hne).2 hn
  rcases hkr : k vars { nonce := some (Csrf.hex bytes) } q.req { w with cache := Cache.add (Cache.remove w.cache n) w.env.tAdd (Csrf.hex bytes) anHour } with ⟨out, w'⟩
  have hcs : csrfIn param header (k vars) {} q.req w = (out, w') := by
    rw [← hkr]
    simp [csrfIn, hs, hp, hne, hc, csrfIssue, hr, expiration_hour]
  have hh : rt.handler vars = errJsonResponse quote (csrfIn param header (k vars)) := by
    rw [hk]; rfl
  refine ⟨rt, hrt', k, vars, hk, out, w', hkr, ?_, fun a ha => ?_⟩
  · rw [h2, ranWith, hh]
    show (errJsonResponse quote (csrfIn param header (k vars)) {} q.req w).2 = w'
    rw [errJson_state, hcs]
  · subst ha
    rw [h2, ranWith, hh]
    show deliver env (shown q) (errJsonResponse quote (csrfIn param header (k vars)) {} q.req w).1 = _
    rw [show errJsonResponse quote (csrfIn param header (k vars)) {} q.req w = (.ret a none, w') from (c48_err_response _ _ _ _ _).2.1 _ _ hcs]

/-! ### C129 -/

/-- The CSRF middleware does not bring a nonce back. -/
theorem csrfIn_stays (param header n : Str) : KeepsP (Stays (σ := σ) n) (some (lift (csrfIn param header))) := by
  intro h hh vars ctx req w hw hr
  have key : ∀ cache, Map.get? cache n = none →
      Map.get? (csrfIssue (h vars) ctx req { w with cache := cache }).2.cache n = none ∧ (csrfIssue (h vars) ctx req { w with cache := cache }).2.env = w.env := by
    intro cache hc
    unfold csrfIssue
    dsimp only
    split
    · exact ⟨hc, rfl⟩
    · rename_i bytes hb
      exact hh vars _ req { w with cache := Cache.add cache w.env.tAdd (Csrf.hex bytes) Csrf.expiration }
        (by rw [Cache.add, Map.get?_set_other _ _ _ _ (hr bytes hb).symm]; exact hc) hr
  show Map.get? (csrfIn param header (h vars) ctx req w).2.cache n = none ∧ (csrfIn param header (h vars) ctx req w).2.env = w.env
  unfold csrfIn
  split
  · exact key w.cache hw
  · dsimp only
    split
    · exact ⟨hw, rfl⟩
    · refine key _ ?_
      by_cases he : n = Csrf.previousNonce param header req
      · rw [he]; exact Map.get?_erase_same _ _
      · rw [Cache.remove, Map.get?_erase_other _ _ _ he]; exact hw

theorem errJson_stays (n : Str) : KeepsP (Stays (σ := σ) n) (some (lift (errJsonResponse quote))) := by
  intro h hh vars ctx req w hw hr
  show Map.get? (errJsonResponse quote (h vars) ctx req w).2.cache n = none ∧ (errJsonResponse quote (h vars) ctx req w).2.env = w.env
  rw [errJson_state]
  exact hh vars ctx req w hw hr

/-- A nonce a request carries is spent by it, or the request is refused. -/
theorem csrfIn_spends {param header n : Str} {h : AHandler (CsrfState σ)} (hh : Stays n h) (vars : Str → Option Str) (ctx : Ctx) {req : Req} {w : CsrfState σ}
    (hm : ¬ SafeMethod req.method) (hc : Carries param header req n) (hr : ∀ b, w.env.rnd = some b → Csrf.hex b ≠ n) :
    csrfIn param header (h vars) ctx req w = (.ret none (some .accessDenied), w) ∨
      Map.get? (csrfIn param header (h vars) ctx req w).2.cache n = none := by
  by_cases hn : ∃ n, Carries param header req n ∧ Cache.contains w.cache w.env.tCheck n = true
  case neg => exact .inl (csrfIn_refuses _ _ hm hn)
  have hne : n ≠ [] := by cases hc <;> assumption
  have hp := (previousNonce_iff param header req n hne).2 hc
  have hs : Csrf.skipCheck req.method = false := by
    cases hk : Csrf.skipCheck req.method with
    | false => rfl
    | true => exact absurd ((skipCheck_iff _).1 hk) hm
  simp only [csrfIn, hs, Bool.false_eq_true, if_false, hp]
  split
  · exact .inl rfl
  · right
    unfold csrfIssue
    dsimp only
    split
    · exact Map.get?_erase_same _ _
    · rename_i bytes hb
      exact (hh vars _ req { w with cache := Cache.add (Cache.remove w.cache n) w.env.tAdd (Csrf.hex bytes) Csrf.expiration }
        (by rw [Cache.add, Map.get?_set_other _ _ _ _ (hr bytes hb).symm]; exact Map.get?_erase_same _ _) hr).1

theorem serveApp_fuel {r : Router} {hs : List (AHandler σ)} {q : AReq} {buf : List USeg} {s : σ} {f g : Nat} {a b : WRes c × σ}
    (hf : serveApp (c := c) x other env r hs q buf f s = some a) (hg : serveApp (c := c) x other env r hs q buf g s = some b) : a = b := by
  unfold serveApp at hf hg
  split at hf
  · simp_all
  · rename_i segs hsegs
    simp only [hsegs] at hg
    split at hf
    · simp_all
    · rename_i m hm
      simp only [hm] at hg
      rw [Option.map_eq_some_iff] at hf hg
      obtain ⟨m1, h1, h2⟩ := hf
      obtain ⟨m2, h3, h4⟩ := hg
      have : m1 = m2 := by
        rcases Nat.le_total f g with h | h
        · have := matchM_fuel h1 h; rw [h3] at this; cases this; rfl
        · have := matchM_fuel h3 h; rw [h1] at this; cases this; rfl
      rw [← h2, ← h4, this]

/-- C129, one request: a nonce that is gone stays gone; the nonce a state-changing request carries is gone afterwards, unless nothing behind the middleware ran. -/
theorem c129_spent (he : Orders env) (param header cfg : Str) (assets : Option Str) (files : Str → AHandler (CsrfState σ))
    (ops : List (Mux.Op (AHandler (CsrfState σ)))) (n : Str) (hfiles : ∀ p, Stays n (files p)) (hops : ∀ op ∈ ops, OpKeeps (Stays n) op)
    {r : Router} {rts : List (Mux.Route (AHandler (CsrfState σ)))}
    (hrts : rts = (run (World.new cfg assets files) (.common 0 (csrfGuards quote param header) :: ops)).routes)
    (hload : load x other (newRouter ci) 0 rts = some r)
    (q : AReq) {buf : List USeg} (hb : buf.length = 19) (w : CsrfState σ)
    (hr : ∀ b, w.env.rnd = some b → Csrf.hex b ≠ n) {fuel : Nat} {res : WRes c × CsrfState σ}
    (hres : serveApp (c := c) x other env r (rts.map (·.handler)) q buf fuel w = some res) :
    (Map.get? w.cache n = none → Map.get? res.2.cache n = none) ∧
      (¬ SafeMethod q.req.method → Carries param header q.req n → Outside env quote cfg assets files ops q w res ∨ Map.get? res.2.cache n = none) := by
  obtain ⟨f, res', h1, h2⟩ := app_cases (c := c) (env := env) hload q hb w
  have hsame : res = res' := serveApp_fuel hres (h1 f (Nat.le_refl _))
  subst hsame
  rcases h2 with ⟨h2, _⟩ | ⟨m, ps, ans, _, _, _, _, _, h2⟩
  · rw [h2]; exact ⟨fun h => h, fun _ _ => .inl (.inr (.inl rfl))⟩
  rcases h2 with ⟨_, h2⟩ | ⟨_, h2⟩ | ⟨p, labels, _, rt, hrt, hmeth, p0, k, segs, _, _, _, h2⟩
  · rw [h2]; exact ⟨fun h => h, fun _ _ => .inl (.inl rfl)⟩
  · rw [h2]; exact ⟨fun h => h, fun _ _ => .inl (.inr (.inl rfl))⟩
  rw [hrts] at hrt
  generalize pathVarText q.path p labels segs = vars at h2
  rcases guarded_with (P := Stays n) cfg assets files _ ops hfiles hops rt hrt with ⟨k, hP, hk⟩ | ⟨hopen, hP⟩
  · have hst : Stays n rt.handler := by
      rw [hk]
      refine wrapAll_keeps (fun m hm => ?_) hP
      simp only [csrfGuards, List.mem_cons, List.not_mem_nil, or_false] at hm
      rcases hm with rfl | rfl
      · exact errJson_stays n
      · exact csrfIn_stays param header n
    refine ⟨fun hw => ?_, fun hm hc => ?_⟩
    · rw [h2]; exact (hst vars {} q.req w hw hr).1
    · have hh : rt.handler vars = errJsonResponse quote (csrfIn param header (k vars)) := by
        rw [hk]; rfl
      rw [h2, ranWith, hh]
      rcases csrfIn_spends hP vars {} hm hc hr with h | h
      · obtain ⟨code, msg, w', d1, d2, d3, d4, d5⟩ := (c89_json_error (c := c) (quote := quote) he _ {} q.req (shown q) w).1 none _ _ h
        cases d1
        exact .inl (.inr (.inr (.inr ⟨d3, msg, w', d2, d4, d5⟩)))
      · right
        show Map.get? (errJsonResponse quote (csrfIn param header (k vars)) {} q.req w).2.cache n = none
        rw [errJson_state]
        exact h
  · refine ⟨fun hw => ?_, fun _ _ => .inl (.inr (.inr (.inl ⟨rt, vars, hopen, h2⟩)))⟩
    rw [h2]; exact (hP vars {} q.req w hw hr).1

/-- C129: of two state-changing requests to an application behind `ErrJsonResponse` and the CSRF middleware that carry one nonce,
to whichever routes and with whatever requests before and between them, at least one runs nothing behind the middleware,
unless the random source gave the nonce out again. -/
theorem c129_single_use (he : Orders env) (param header cfg : Str) (assets : Option Str) (files : Str → AHandler (CsrfState σ))
    (ops : List (Mux.Op (AHandler (CsrfState σ)))) (n : Str) (hfiles : ∀ p, Stays n (files p)) (hops : ∀ op ∈ ops, OpKeeps (Stays n) op)
    {r : Router} {rts : List (Mux.Route (AHandler (CsrfState σ)))}
    (hrts : rts = (run (World.new cfg assets files) (.common 0 (csrfGuards quote param header) :: ops)).routes)
    (hload : load x other (newRouter ci) 0 rts = some r) {buf : List USeg} (hb : buf.length = 19)
    (mid : List (AReq × Csrf.Env)) (q q' : AReq) (e e' : Csrf.Env)
    (hm : ¬ SafeMethod q.req.method) (hm' : ¬ SafeMethod q'.req.method) (hc : Carries param header q.req n) (hc' : Carries param header q'.req n)
    (hfresh : ∀ e1 ∈ e :: mid.map (·.2), ∀ b, e1.rnd = some b → Csrf.hex b ≠ n)
    {fuel : Nat} {w w1 w2 w3 : CsrfState σ} {res res' : WRes c} {l : List (WRes c)}
    (h1 : serveApp (c := c) x other env r (rts.map (·.handler)) q buf fuel { w with env := e } = some (res, w1))
    (h2 : serveAll (c := c) x other env r (rts.map (·.handler)) buf fuel mid w1 = some (l, w2))
    (h3 : serveApp (c := c) x other env r (rts.map (·.handler)) q' buf fuel { w2 with env := e' } = some (res', w3)) :
    Outside env quote cfg assets files ops q { w with env := e } (res, w1) ∨ Outside env quote cfg assets files ops q' { w2 with env := e' } (res', w3) := by
  rcases (c129_spent he param header cfg assets files ops n hfiles hops hrts hload q hb { w with env := e } (hfresh e (by simp)) h1).2 hm hc with h | h
  · exact .inl h
  right
  have hgone : Map.get? w2.cache n = none := by
    have key : ∀ (mid : List (AReq × Csrf.Env)), (∀ p ∈ mid, ∀ b, p.2.rnd = some b → Csrf.hex b ≠ n) →
        ∀ (w1 w2 : CsrfState σ) (l : List (WRes c)), Map.get? w1.cache n = none → serveAll (c := c) x other env r (rts.map (·.handler)) buf fuel mid w1 = some (l, w2) →
        Map.get? w2.cache n = none := by
      intro mid
      induction mid with
      | nil => intro _ w1 w2 l hw hs; simp only [serveAll, Option.some.injEq, Prod.mk.injEq] at hs; rw [← hs.2]; exact hw
      | cons pe mid ih =>
        intro hf w1 w2 l hw hs
        rcases pe with ⟨p, ep⟩
        rw [serveAll] at hs
        split at hs
        · cases hs
        · rename_i res0 w0 h0
          rw [Option.map_eq_some_iff] at hs
          obtain ⟨⟨l0, w4⟩, h4, h5⟩ := hs
          simp only [Prod.mk.injEq] at h5
          rw [← h5.2]
          refine ih (fun p h => hf p (by simp [h])) w0 w4 l0 ?_ h4
          exact (c129_spent he param header cfg assets files ops n hfiles hops hrts hload p hb { w1 with env := ep } (hf (p, ep) (by simp)) h0).1 hw
    exact key mid (fun p hp => hfresh p.2 (by simp; exact .inr ⟨p.1, hp⟩)) w1 w2 l h h2
  have hne : n ≠ [] := by cases hc <;> assumption
  obtain ⟨f, res0, h4, h5⟩ := c128_refused (c := c) he param header cfg assets files ops hrts hload q' hb { w2 with env := e' } hm' (by
    rintro ⟨n', hn', hcont⟩
    have hne' : n' ≠ [] := by cases hn' <;> assumption
    have e1 := (previousNonce_iff param header q'.req n' hne').2 hn'
    have e2 := (previousNonce_iff param header q'.req n hne).2 hc'
    rw [e1] at e2
    subst e2
    simp [Cache.contains, hgone] at hcont)
  rw [serveApp_fuel h3 (h4 f (Nat.le_refl _))]
  exact h5

/-! ### Examples -/

/-- The statuses clients see and the state afterwards, if the application starts. -/
def triedAll (rts : List (Mux.Route (AHandler (CsrfState σ)))) (qs : List (AReq × Csrf.Env)) (fuel : Nat) (w : CsrfState σ) : Option (List (List Nat) × CsrfState σ) :=
  (load plainExt id (newRouter false) 0 rts).bind fun r =>
    (serveAll (c := dotCodec) plainExt id simpleEnv r (rts.map (·.handler)) freshBuf fuel qs w).map fun p => (p.1.map fun a => statusesOf a.w.base.out, p.2)

/-- A handler that notes its name and the nonce shown to it. -/
def nonceShower (name : Str) : AHandler (CsrfState (List (Str × Option Str))) := fun _ ctx _ w =>
  (.ret (some (.resp (Build.plainTextOK b!"ok"))) none, { w with rest := w.rest ++ [(name, ctx.nonce)] })

/-- An application with a form, a transfer, and a router of its own for orders. -/
def bank : List (Mux.Op (AHandler (CsrfState (List (Str × Option Str))))) :=
  [Mux.handleGet 0 b!"/form" (nonceShower b!"form") [], Mux.handlePost 0 b!"/transfer" (nonceShower b!"transfer") [], .sub 0 b!"/orders",
    Mux.handleDelete 1 b!"/{id}" (nonceShower b!"delete") []]

theorem nonceShower_stays (n name : Str) : Stays n (nonceShower name) := fun _ _ _ _ hw _ => ⟨hw, rfl⟩

/-- The hypotheses of C129 hold for it, with any nonce. -/
example (n : Str) : (∀ op ∈ bank, OpKeeps (Stays n) op) ∧ ∀ p : Str, Stays n ((fun _ => nonceShower b!"file" : Str → _) p) := by
  refine ⟨?_, fun _ => nonceShower_stays n _⟩
  intro op hop
  simp only [bank, Mux.handleGet, Mux.handlePost, Mux.handleDelete, List.mem_cons, List.not_mem_nil, or_false] at hop
  rcases hop with rfl | rfl | rfl | rfl
  · exact ⟨nonceShower_stays n _, by simp⟩
  · exact ⟨nonceShower_stays n _, by simp⟩
  · trivial
  · exact ⟨nonceShower_stays n _, by simp⟩

/-- A form, a transfer with its nonce, an order deleted with the same nonce (refused), then with the nonce of the transfer. -/
example : ¬ SafeMethod b!"DELETE" ∧ Carries b!"_csrf" b!"X-Csrf-Token" { method := b!"DELETE", headers := [(b!"X-Csrf-Token", [b!"01"])] } b!"01" ∧
    (triedAll (run (World.new b!"/" none fun _ => nonceShower b!"file") (.common 0 (csrfGuards id b!"_csrf" b!"X-Csrf-Token") :: bank)).routes
      [({ req := { method := b!"GET" }, path := b!"/form" }, ⟨0, 0, some [1]⟩),
        ({ req := { method := b!"POST", headers := [(b!"X-Csrf-Token", [b!"01"])] }, path := b!"/transfer" }, ⟨1, 1, some [2]⟩),
        ({ req := { method := b!"DELETE", headers := [(b!"X-Csrf-Token", [b!"01"])] }, path := b!"/orders/5" }, ⟨2, 2, some [3]⟩),
        ({ req := { method := b!"delete", headers := [(b!"X-Csrf-Token", [b!"02"])] }, path := b!"/orders/5" }, ⟨3, 3, some [4]⟩),
        ({ req := { method := b!"POST" }, path := b!"/transfer" }, ⟨4, 4, some [5]⟩),
        ({ req := { method := b!"POST" }, path := b!"/nowhere" }, ⟨5, 5, some [6]⟩)] 30 ⟨⟨0, 0, none⟩, [], []⟩).map (fun p => (p.1, p.2.rest)) =
      some ([[200], [200], [403], [200], [403], [404]], [(b!"form", some b!"01"), (b!"transfer", some b!"02"), (b!"delete", some b!"04")]) := by
  refine ⟨by decide, ?_, by decide +kernel⟩
  exact .hdr _ [] (by decide) (by decide)

end Gofre.Props
