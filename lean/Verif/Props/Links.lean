import Verif.Props.Race
import Verif.Props.Assets
import Verif.Props.Guard
import Verif.Props.Flow
import Verif.Props.Stack

/-! # C80, C82, C84, C95: the pieces put together -/

namespace Gofre.Spec

/-- The path below which the assets are documented to be: the context path (`/` adds nothing), then the mapping path, by default `assets`. -/
def assetsAt (ctx mapping : Str) : Str :=
  (match ctx with
    | [] => []
    | [47] => []
    | c => c) ++ b!"/" ++ (match mapping with
    | [] => b!"assets"
    | m => m) ++ b!"/"

end Gofre.Spec

namespace Gofre.Props
open Gofre.Path Gofre.Spec

/-! ### C82 -/

/-- C82, the registration: whatever the application does afterwards, a mux with assets has a `GET` route for everything below the path of
the assets, whose file server finds the files by their names. -/
theorem c82_registered {H : Type} (ctx mapping : Str) (files : Str → H) (ops : List (Mux.Op H)) :
    ∃ pre rest, (Mux.run (Mux.World.new ctx (some mapping) files) ops).routes = ⟨b!"GET", assetsAt ctx mapping ++ b!"**", files pre⟩ :: rest ∧
      ∀ name, PlainName name → name ≠ [] →
        Assets.serveAsset pre (assetsAt ctx mapping ++ joinWith slash name) [] =
          if name.getLast? = some b!"index.html" then .redirect else .file name := by
  have hat : assetsAt ctx mapping = Mux.assetsPrefix ctx mapping := by
    unfold assetsAt Mux.assetsPrefix Mux.contextPath
    congr 2
    · congr 1
      split
      · rfl
      · rfl
      · rename_i h1 h2
        rw [if_neg]
        rintro (rfl | rfl)
        · exact h1 rfl
        · exact h2 rfl
    · cases mapping <;> rfl
  refine ⟨Mux.assetsPrefix ctx mapping, (Mux.run Mux.World.init ops).routes, ?_, ?_⟩
  · rw [new_routes, hat]; rfl
  · intro name h1 h2
    rw [hat]
    exact c82_file ctx mapping [] name h1 h2 (.inl rfl)

example : ((Mux.run (Mux.World.new b!"/" (some []) fun _ => 0) [.handle 0 b!"GET" b!"/a" 5 []]).routes.map fun r => (r.path, r.handler)) =
    [(b!"/assets/**", 0), (b!"/a", 5)] ∧ PlainName [b!"css", b!"a.css"] := by
  refine ⟨by decide, ?_⟩
  unfold PlainName
  decide

/-! ### C80 -/

/-- C80, the registration: on a mux with path prefix `pre` and common middlewares `ms`, `HandleOAUTH2WithCustomPaths` adds two `GET` routes:
the initiate path with its middlewares, and below the base path one whose last piece is the variable `providerName`, with the others. -/
theorem c80_registered {H : Type} (w : Mux.World H) (v i : Nat) (m : Mux.Mux H) (hv : w.deref v = some (i, m)) (init base : Str) (hi hc : H)
    (ims cms : List (Option (H → H))) :
    (Mux.run w (Mux.oauthOps v init base hi hc ims cms)).routes = w.routes ++
      [⟨b!"GET", joinPath m.pathPrefix init, wrapAll (wrapAll hi ims) m.common⟩,
       ⟨b!"GET", joinPath m.pathPrefix (base ++ b!"/{providerName}"), wrapAll (wrapAll hc cms) m.common⟩] := by
  have hd : (Mux.step w (.handle v b!"GET" init hi ims)).deref v = some (i, m) := by
    rw [Mux.step, hv]
    exact hv
  simp only [Mux.oauthOps, Mux.run, List.foldl_cons, List.foldl_nil]
  rw [Mux.step, hd]
  simp only
  rw [Mux.step, hv]
  simp only [wrapMiddleware_eq, List.append_assoc, ← resolvePath_eq]
  rfl

example : (Mux.run (Mux.World.new b!"/" none fun _ => 0) (.common 0 [some (· * 10)] :: Mux.oauthOps 0 b!"/in" b!"/cb" 5 6 [some (· + 1)] [])).routes.map
    (fun r => (r.path, r.handler)) = [(b!"/in", 60), (b!"/cb/{providerName}", 60)] := by decide

/-! ### C84 -/

section
open Gofre.Http Gofre.Response Gofre.Serve Gofre.MW Gofre.Stack

/-- C84 by what the handler returns (what is not covered is as in `c84_served_partial`): with an error the client gets a bare 500, whatever else
is returned. -/
theorem c84_results_partial {c : Codec} {env : Env} {x : Ext} {other : Str → Str} {ci : Bool} (he : Orders env) {es : List Route} {r : Router} (hr : Built x other sortSiblings ci es r)
    (res : Nat → HRes MResp) (req : RReq) (path : Str) {buf : List USeg} (hb : buf.length = 19) :
    ∃ (f : Nat) (out : WRes c), (∀ g, f ≤ g → serve x other env r (fun h => act (res h)) req path buf g = some out) ∧
      (out = .panic {} ∨ seen out = [.head 404 fun _ => []] ∨
        ∃ e ∈ es, toUpper other e.method = toUpper other req.method ∧
          ((∃ o err, res e.handler = .ret o (some err)) ∧ seen out = [.head 500 fun _ => []] ∨
            ∃ resp, res e.handler = .ret (some (.resp resp)) none ∧
              (out.w.base.out = [.hijack] ∨ ((∃ w, out = .panic w ∨ out = .blocked w) ∧ ∀ e ∈ seen out, isInfo e = true) ∨
                ∃ code H, Answered [] (seen out) code H ∧
                  ∀ h, headOf req resp = some h → FinalStatus h.statusCode → code = h.statusCode.toNat ∧ Block env h (fun _ => []) H))) := by
  obtain ⟨f, out, h1, h2⟩ := c84_served_partial (c := c) he hr (fun h => act (res h)) req path hb
  refine ⟨f, out, h1, ?_⟩
  rcases h2 with h2 | h2 | ⟨e, h3, h4, h5⟩
  · exact .inl h2
  · exact .inr (.inl h2)
  · match hres : res e.handler with
    | .ret o (some err) =>
      simp only [hres, act] at h5
      exact .inr (.inr ⟨e, h3, h4, .inl ⟨⟨o, err, hres⟩, h5⟩⟩)
    | .ret none none => simp only [hres, act] at h5; exact .inl h5
    | .ret (some .hollow) none => simp only [hres, act] at h5; exact .inl h5
    | .ret (some (.resp resp)) none =>
      simp only [hres, act] at h5
      exact .inr (.inr ⟨e, h3, h4, .inr ⟨resp, hres, h5⟩⟩)
    | .panic v => simp only [hres, act] at h5; exact .inl h5

end

/-! ### C95 -/

open Gofre.Race Gofre.Cache in
/-- C95 for a request alone behind `CSRFPrevention`: it ends, and leaves the map as the middleware of C39 and C40 does. -/
theorem c95_alone_partial {σ ρ : Type} (param header : Str) (env : Csrf.Env) (bytes : List UInt8) (hr : env.rnd = some bytes) (handler : Handler σ ρ)
    (ctx : Ctx) (req : Req) (c : Cache) (s : σ) :
    runTasks [(0, env.tCheck), (0, env.tAdd), (0, env.tAdd), (0, env.tAdd), (0, env.tAdd)]
        [csrfTask req.method (Csrf.previousNonce param header req) (Csrf.hex bytes)] ⟨c, false⟩ =
      some ([⟨[], false⟩], ⟨(Csrf.csrf param header env handler ctx req c s).2.1, false⟩) := by
  unfold csrfTask Csrf.csrf Csrf.issue
  by_cases hs : Csrf.skipCheck req.method = true
  · simp [hs, hr, runTasks, taskStep]
  · by_cases hn : Csrf.previousNonce param header req = []
    · simp [hs, hn, runTasks, taskStep]
    · by_cases hc : contains c env.tCheck (Csrf.previousNonce param header req) = true
      · have hne : c ≠ [] := by rintro rfl; simp [contains, Map.get?] at hc
        simp [hs, hn, hc, hr, hne, runTasks, taskStep]
      · simp [hs, hn, hc, runTasks, taskStep]

example : Gofre.Race.runTasks [(0, 3), (0, 3), (0, 3), (0, 3), (0, 3)] [Gofre.Race.csrfTask b!"POST" b!"n" b!"m"] ⟨[(b!"n", 9)], false⟩ =
    some ([⟨[], false⟩], ⟨[(b!"m", 3 + Csrf.expiration)], false⟩) := by decide

open Gofre.Race Gofre.Cache in
/-- C95 for requests alone at the two OAuth2 endpoints: they end, and leave the map as the handlers of C43 and C80 do. -/
theorem c95_alone_oauth_partial {σ ρ : Type} (cfg : OAuth.Config σ) (base : Str) (h : OAuth.OHandler σ ρ) (now : Int) (st n : Str) (req : Req) (c : Cache) (s : σ) :
    (∀ url, (OAuth.initiate cfg base now st req (some c)).1 = .ok url →
      runTasks [(0, now), (0, now)] [initiateTask st cfg.keyExpiration] ⟨c, false⟩ =
        (OAuth.run cfg base h [.initiate now st req] (some c, s)).1.map fun c' => ([⟨[], false⟩], ⟨c', false⟩)) ∧
    runTasks [(0, now)] [callbackTask (given req b!"state")] ⟨c, false⟩ =
      (OAuth.run cfg base h [.callback now n req] (some c, s)).1.map fun c' => ([⟨[], false⟩], ⟨c', false⟩) := by
  constructor
  · intro url hu
    unfold OAuth.initiate at hu
    simp only [OAuth.run, OAuth.initiate]
    cases hsel : OAuth.selectProvider cfg req with
    | error e => rw [hsel] at hu; simp at hu
    | ok p => simp [initiateTask, runTasks, taskStep]
  · by_cases hc : contains c now (given req b!"state") = true <;> simp [OAuth.run, callbackTask, runTasks, taskStep, hc]

end Gofre.Props
