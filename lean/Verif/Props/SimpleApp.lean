import Verif.Spec.SimpleApp
import Verif.Props.SimpleRoutes
import Verif.Props.App

/-! # C126 for simple applications -/

namespace Gofre.Props
open Gofre.Http Gofre.Response Gofre.Spec Gofre.Serve Gofre.Path Gofre.MW Gofre.Stack Gofre.App
open Gofre.Mux (World run)
variable {σ : Type} {env : Env} {c : Codec} {x : Ext} {other : Str → Str} {ci : Bool}

theorem of_patternsOf {H : Type} {rts : List (Mux.Route H)} {p : Pattern} (h : p ∈ patternsOf x ci rts) : ∃ rt ∈ rts, parsePattern x ci rt.path = .ok p := by
  unfold patternsOf at h
  obtain ⟨rt, hrt, h⟩ := List.mem_filterMap.1 h
  cases hp : parsePattern x ci rt.path with
  | ok p0 => rw [hp] at h; simp only [Option.some.injEq] at h; exact ⟨rt, hrt, by rw [hp, h]⟩
  | error => rw [hp] at h; cases h
  | panic => rw [hp] at h; cases h
  | hangs => rw [hp] at h; cases h

/-- C126 for programs whose routes, on whatever sub-routers and clones, are simple and without traps: when some route is for the request, the chain of the most specific such
route runs, with its variables; otherwise the answer is 404 and nothing runs. -/
theorem c126_simple_partial (hl : FoldLaws x.eqFold) (ops : List (Mux.Op (AHandler σ)))
    {r : Router} (hload : load x other (newRouter ci) 0 (run World.init ops).routes = some r)
    (hs : SimpleRoutes x ci (bareRoutes (routesMade ops.reverse))) (ht : NoTraps x other ci (bareRoutes (routesMade ops.reverse)))
    (q : AReq) (hm : Ascii q.req.method) (hms : ∀ rt ∈ routesMade ops.reverse, Ascii rt.method)
    {buf : List USeg} (hb : buf.length = 19) (hlen : q.path.length ≤ 65535) (hf : Fits q.path) (hus : ci = true → ∀ u ∈ segmentsOf q.path, Ascii u) (s : σ) :
    ∃ f res, (∀ g, f ≤ g → serveApp (c := c) x other env r ((run World.init ops).routes.map (·.handler)) q buf g s = some res) ∧
      (((¬ ∃ rt ∈ routesMade ops.reverse, ∃ vars, Serves x ci rt q.req.method q.path vars) ∧ res = (bare 404, s)) ∨
        ∃ rt ∈ routesMade ops.reverse, ∃ vars p, Serves x ci rt q.req.method q.path vars ∧ parsePattern x ci rt.path = .ok p ∧
          (∀ rt' ∈ routesMade ops.reverse, ∀ vars' p', Serves x ci rt' q.req.method q.path vars' → parsePattern x ci rt'.path = .ok p' →
            MoreSpecific (kinds p.segments) (kinds p'.segments)) ∧
          res = (deliver env (shown q) (rt.handler (fun n => some (vars n)) {} q.req s).1, (rt.handler (fun n => some (vars n)) {} q.req s).2)) := by
  have hin : ∀ rt ∈ routesMade ops.reverse, (⟨rt.method, rt.path, 0⟩ : Spec.Route) ∈ bareRoutes (routesMade ops.reverse) := fun rt hrt => List.mem_map.2 ⟨rt, hrt, rfl⟩
  have hof : ∀ p ∈ patternsOf x ci (routesOn q.req.method (routesMade ops.reverse)), ∃ rt ∈ routesMade ops.reverse, SameMethod rt.method q.req.method ∧ parsePattern x ci rt.path = .ok p := by
    intro p hp
    obtain ⟨rt, hrt, h⟩ := of_patternsOf hp
    unfold routesOn at hrt
    rw [List.mem_filter] at hrt
    exact ⟨rt, hrt.1, by simpa using hrt.2, h⟩
  have no : ∀ p ∈ patternsOf x ci (routesOn q.req.method (routesMade ops.reverse)), ∀ s ∈ p.segments, s.kind ≠ .constraint ∧ s.kind ≠ .regex := by
    intro p hp
    obtain ⟨rt, hrt, -, h⟩ := hof p hp
    exact hs.kinds _ (hin rt hrt) p h
  obtain ⟨f, res, h1, h2⟩ := c126_exact_partial (c := c) (env := env) hl ops hload q hm hms rfl
    (fun p hp => by
      obtain ⟨rt, hrt, -, h⟩ := hof p hp
      exact ⟨fun s h => ⟨fun hk => absurd hk (no p hp s h).1, fun hk => absurd hk (no p hp s h).2⟩, hs.short _ (hin rt hrt) p h, hs.stars _ (hin rt hrt) p h⟩)
    (by have := hs.few; simpa [bareRoutes] using this) hb hlen hf
    ⟨fun p hp s h hk => absurd hk (no p hp s h).2, (fun hc p hp s h hk => by
      obtain ⟨rt, hrt, -, h'⟩ := hof p hp
      exact hs.ascii hc _ (hin rt hrt) p h' s h hk), hus⟩
    (fun p hp _ _ s h _ _ hk => absurd hk (no p hp s h).2)
    (List.Pairwise.imp_of_mem (R := fun _ _ => True) (fun {p _} hp _ _ s h _ _ hk => absurd hk (no p hp s h).1) (List.pairwise_of_forall fun _ _ => trivial)) s
  have nohide : ∀ rt ∈ routesMade ops.reverse, ∀ vars p, Serves x ci rt q.req.method q.path vars → parsePattern x ci rt.path = .ok p →
      ¬ Hidden x ci (patternsOf x ci (routesOn q.req.method (routesMade ops.reverse))) (segmentsOf q.path) p.segments := by
    intro rt hrt vars p hsv hp
    refine no_traps_of (other := other) (method := q.req.method) hs ht (fun q' hq' => ?_) (fun d d1 d2 q0 d4 => ?_) (hin rt hrt) ((toUpper_eq_iff (hms rt hrt) hm).2 hsv.same) hp
    · obtain ⟨rt', hrt', hsame, h⟩ := hof q' hq'
      exact ⟨_, hin rt' hrt', (toUpper_eq_iff (hms rt' hrt') hm).2 hsame, q', h, rfl⟩
    · obtain ⟨rt', hrt', rfl⟩ := List.mem_map.1 d1
      refine ⟨q0, mem_patternsOf ?_ d4, rfl⟩
      unfold routesOn
      rw [List.mem_filter]
      exact ⟨hrt', by simpa using (toUpper_eq_iff (hms rt' hrt') hm).1 d2⟩
  refine ⟨f, res, h1, ?_⟩
  rcases h2 with ⟨h2, h3⟩ | ⟨rt, hrt, vars, p, h3, h4, -, h6, h7⟩
  · refine .inl ⟨?_, h2⟩
    rintro ⟨rt, hrt, vars, hsv⟩
    obtain ⟨p, -, hp, -⟩ := hsv.described
    exact nohide rt hrt vars p hsv hp (h3 rt hrt vars p hsv hp)
  · exact .inr ⟨rt, hrt, vars, p, h3, h4, fun rt' hrt' vars' p' hsv' hp' => h6 rt' hrt' vars' p' hsv' hp' (nohide rt' hrt' vars' p' hsv' hp'), h7⟩

/-- Simplicity and traps do not depend on the handlers. -/
theorem simple_forget {es : List Spec.Route} (h : SimpleRoutes x ci es ∧ NoTraps x other ci es) :
    SimpleRoutes x ci (es.map fun e => ⟨e.method, e.pat, 0⟩) ∧ NoTraps x other ci (es.map fun e => ⟨e.method, e.pat, 0⟩) := by
  obtain ⟨h, ht⟩ := h
  refine ⟨⟨by simpa using h.few, ?_, ?_, ?_, ?_⟩, ?_⟩
  · intro e he; obtain ⟨e, he', rfl⟩ := List.mem_map.1 he; exact h.short e he'
  · intro e he; obtain ⟨e, he', rfl⟩ := List.mem_map.1 he; exact h.kinds e he'
  · intro e he; obtain ⟨e, he', rfl⟩ := List.mem_map.1 he; exact h.stars e he'
  · intro hc e he; obtain ⟨e, he', rfl⟩ := List.mem_map.1 he; exact h.ascii hc e he'
  · intro e he p hp k k0 k1
    obtain ⟨e, he', rfl⟩ := List.mem_map.1 he
    rcases ht e he' p hp k k0 k1 with ⟨d, hd, h1, h2⟩ | h1
    · exact .inl ⟨_, List.mem_map.2 ⟨d, hd, rfl⟩, h1, h2⟩
    · right
      intro d hd
      obtain ⟨d, hd', rfl⟩ := List.mem_map.1 hd
      exact h1 d hd'

/-- The shop as a program, with its item pages on a sub-router. -/
def shopApp : List (Mux.Op (AHandler (List Str))) := [Mux.handleGet 0 b!"/shop" (showing b!"item") [], .sub 0 b!"/shop", Mux.handleGet 1 b!"/{item}" (showing b!"item") [],
  Mux.handleGet 1 b!"/{item}/reviews" (showing b!"item") [], Mux.handleGet 0 b!"/**" (showing b!"item") []]

/-- It starts, its routes are simple and without traps, and a review page runs its own handler with the name of the item. -/
example : (load plainExt id (newRouter false) 0 (run World.init shopApp).routes).isSome = true ∧
    SimpleRoutes plainExt false (bareRoutes (routesMade shopApp.reverse)) ∧ NoTraps plainExt id false (bareRoutes (routesMade shopApp.reverse)) ∧
    (∀ rt ∈ routesMade shopApp.reverse, Ascii rt.method) ∧
    tried (run World.init shopApp).routes { req := { method := b!"GET" }, path := b!"/shop/tea/reviews" } 40 [] = some ([200], [b!"tea"]) := by
  have hr : bareRoutes (routesMade shopApp.reverse) = shopRoutes.map fun e => ⟨e.method, e.pat, 0⟩ := by
    rw [← (same_run shopApp).routes]
    rfl
  have hs := simple_forget shopRoutes_simple
  refine ⟨by decide +kernel, by rw [hr]; exact hs.1, by rw [hr]; exact hs.2, ?_, by decide +kernel⟩
  intro rt hrt
  have : (⟨rt.method, rt.path, 0⟩ : Spec.Route) ∈ bareRoutes (routesMade shopApp.reverse) := List.mem_map.2 ⟨rt, hrt, rfl⟩
  rw [hr] at this
  have hg : ∀ e ∈ (shopRoutes.map fun e => (⟨e.method, e.pat, 0⟩ : Spec.Route)), e.method = b!"GET" := by simp [shopRoutes]
  rw [show rt.method = b!"GET" from hg _ this]
  unfold Ascii
  decide

end Gofre.Props
