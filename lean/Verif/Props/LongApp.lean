import Verif.Props.Long
import Verif.Props.SubRouter

/-! # C126, C134: applications and paths that are too long -/

namespace Gofre.Props
open Gofre.Http Gofre.Response Gofre.Spec Gofre.Serve Gofre.Path Gofre.MW Gofre.Stack Gofre.App
open Gofre.Mux (World run)
variable {σ : Type} {env : Env} {c : Codec} {x : Ext} {other : Str → Str} {ci : Bool}

theorem vars_nothing (path : Str) (p : Pattern) (labels : List MT) : pathVarText path p labels [] = fun _ => some [] := by
  funext name
  have : pathVar p labels ([] : List USeg) name = none := by
    unfold pathVar
    split
    · rfl
    · split
      · rfl
      · cases labels <;> simp [nthVar]
  simp [pathVarText, this]

/-- C126, paths of any length that at some point have more than 19 pieces: the request gets 404 and nothing runs, unless a route of the method has a pattern
without segments; then such a route runs, and all its variables are empty. Nothing crashes in matching. -/
theorem c126_overlong (ops : List (Mux.Op (AHandler σ)))
    {r : Router} (hload : load x other (newRouter ci) 0 (run World.init ops).routes = some r)
    (q : AReq) (hm : Ascii q.req.method) (hms : ∀ rt ∈ routesMade ops.reverse, Ascii rt.method)
    {buf : List USeg} (hb : buf.length = 19) (hf : ¬ Fits q.path) (s : σ) :
    ∃ f res, (∀ g, f ≤ g → serveApp (c := c) x other env r ((run World.init ops).routes.map (·.handler)) q buf g s = some res) ∧
      (res = (bare 404, s) ∨ ∃ rt ∈ routesMade ops.reverse, SameMethod rt.method q.req.method ∧
        (∃ p, parsePattern x ci rt.path = .ok p ∧ p.segments = []) ∧ res = ranWith env rt q (fun _ => some []) s) := by
  have hroutes := (same_run ops).routes
  rw [hroutes] at hload ⊢
  obtain ⟨f, res, h1, h2⟩ := app_cases (c := c) (env := env) hload q hb s
  refine ⟨f, res, h1, ?_⟩
  rcases h2 with ⟨h2, _⟩ | ⟨m, ps, ans, hr, _, _, _, hl, h2⟩
  · exact .inl h2
  · obtain ⟨f', hl'⟩ := lookup_over x ci m hb hf
    have ha : ans = answer (matchUrl x ci q.path) m [] := by
      have e := (hl _ (Nat.le_max_left f f')).symm.trans (hl' _ (Nat.le_max_right f f'))
      simpa using e
    rcases h2 with ⟨h2, _⟩ | ⟨_, h2⟩ | ⟨p, labels, h2, rt, hrt, hmeth, p0, k, segs, hp0, hpe, hsegs, hres⟩
    · rw [h2] at ha
      cases hroot : m.root with
      | some q => simp [answer, hroot] at ha
      | none => simp [answer, hroot, tryC_nil, Res.toM] at ha
    · exact .inl h2
    · right
      have hs0 : segs = [] := by
        rcases parse_at q.path buf hb with ⟨h, _⟩ | ⟨_, h⟩
        · exact absurd h hf
        · rw [h] at hsegs; exact (Option.some.inj hsegs).symm
      rw [hs0, vars_nothing] at hres
      refine ⟨rt, hrt, (toUpper_eq_iff (hms rt hrt) hm).1 hmeth, ⟨p0, hp0, ?_⟩, hres⟩
      have := (c14_overflow hr hb hf (by rw [hl f (Nat.le_refl _), h2] : lookup x ci m q.path buf f = some (.found p labels))).2
      rw [hpe] at this
      exact this

/-- C126 fails for paths of more than 65535 bytes, whatever is registered: a request for `/u` is answered as one for `/t`, with the same variables, and leaves the
same state. -/
theorem c126_violated_long (r : Router) (hs : List (AHandler σ)) (q : AReq) {t u : Str} (ht : Lone t) (hu : Lone u) (hl : t.length = u.length)
    (hlen : t.length ≤ 65532) {buf buf' : List USeg} (hb : buf.length = 19) (hb' : buf'.length = 19) (s : σ) :
    segmentsOf (disguised t u) = [u] ∧
    ∃ f, ∀ g, f ≤ g → serveApp (c := c) x other env r hs { q with path := disguised t u } buf g s =
      serveApp x other env r hs { q with path := slash :: t } buf' g s := by
  refine ⟨segments_disguised ht hu, ?_⟩
  obtain ⟨e, h1, h2, h3, h4⟩ := parse_disguised ht hu hl hlen hb hb'
  simp only [serveApp, h1, h2]
  cases hm : r.matchers (toUpper other q.req.method) with
  | none => exact ⟨0, fun _ _ => rfl⟩
  | some m =>
    obtain ⟨-, f, hf⟩ := c14_violated_long x r.ci m ht hu hl hlen hb hb'
    refine ⟨f, fun g hg => ?_⟩
    have e1 := (hf g hg).1
    simp only [lookup, h1, h2] at e1
    simp only
    rw [e1]
    have hv : ∀ p labels, pathVarText (disguised t u) p labels [e] = pathVarText (slash :: t) p labels [e] := by
      intro p labels
      funext name
      obtain ⟨segs, segs', k1, k2, k3, _⟩ := c15_violated_long p labels name ht hu hl hlen hb hb'
      rw [h1] at k1
      rw [h2] at k2
      cases k1
      cases k2
      exact k3
    simp only [hv]
    rfl

/-- C134: paths of any length that at some point have more than 19 pieces get 404 and run nothing. -/
theorem c134_overlong (ms1 ms2 ms : List (Option (AHandler σ → AHandler σ))) (h1 h2 h3 : AHandler σ) (ops : List (Mux.Op (AHandler σ)))
    (hops : ops = readmeUsers ms1 ms2 h1 h2 h3 ∨ ops = readmeClone ms h1 h2 h3)
    {r : Router} (hload : load x other (newRouter false) 0 (run World.init ops).routes = some r)
    (q : AReq) (hm : Ascii q.req.method) {buf : List USeg} (hb : buf.length = 19) (hf : ¬ Fits q.path) (s : σ) :
    ∃ f, ∀ g, f ≤ g → serveApp (c := c) x other env r ((run World.init ops).routes.map (·.handler)) q buf g s = some (bare 404, s) := by
  have hall : ∀ rt ∈ routesMade ops.reverse, Ascii rt.method ∧ ∀ p, parsePattern x false rt.path = .ok p → p.segments ≠ [] := by
    intro rt hrt
    have hpath : rt.path ∈ [b!"/users", b!"/users/{userId}", b!"/health", b!"/api1", b!"/api2"] ∧ rt.method ∈ [b!"GET", b!"POST"] := by
      rcases hops with rfl | rfl
      · rw [users_routes] at hrt
        simp only [List.mem_cons, List.not_mem_nil, or_false] at hrt
        rcases hrt with rfl | rfl | rfl <;> simp
      · rw [clone_routes] at hrt
        simp only [List.mem_cons, List.not_mem_nil, or_false] at hrt
        rcases hrt with rfl | rfl | rfl <;> simp
    refine ⟨?_, fun p hp => parse_segments_ne_nil hp ?_ ?_⟩
    · have := hpath.2
      simp only [List.mem_cons, List.not_mem_nil, or_false] at this
      rcases this with h | h <;> rw [h] <;> simp [Ascii]
    · have := hpath.1
      simp only [List.mem_cons, List.not_mem_nil, or_false] at this
      rcases this with h | h | h | h | h <;> rw [h] <;> decide
    · have := hpath.1
      simp only [List.mem_cons, List.not_mem_nil, or_false] at this
      rcases this with h | h | h | h | h <;> rw [h] <;> decide
  obtain ⟨f, res, k1, k2⟩ := c126_overlong (c := c) (env := env) ops hload q hm (fun rt h => (hall rt h).1) hb hf s
  rcases k2 with rfl | ⟨rt, hrt, _, ⟨p, hp, hp0⟩, _⟩
  · exact ⟨f, k1⟩
  · exact absurd hp0 ((hall rt hrt).2 p hp)

/-- C134 fails for paths of more than 65535 bytes, whatever the handlers and middlewares are: a GET request for `/guest`, which no route is for, runs the handler
that lists the users. -/
theorem c134_violated_long (hl : FoldLaws x.eqFold) (ms1 ms2 : List (Option (AHandler σ → AHandler σ))) (create one all : AHandler σ)
    {r : Router} (hload : load x other (newRouter false) 0 (run World.init (readmeUsers ms1 ms2 create one all)).routes = some r)
    (q : AReq) (hm : q.req.method = b!"GET") {buf : List USeg} (hb : buf.length = 19) (s : σ) :
    segmentsOf (disguised b!"users" b!"guest") = [b!"guest"] ∧
    ∃ f, ∀ g, f ≤ g →
      serveApp (c := c) x other env r ((run World.init (readmeUsers ms1 ms2 create one all)).routes.map (·.handler))
        { q with path := disguised b!"users" b!"guest" } buf g s = some (answered env q (wrapAll all (ms1 ++ ms2)) (fun _ => []) s) := by
  have hu : Lone b!"users" := ⟨by decide, by decide, by decide⟩
  obtain ⟨h1, f, h2⟩ := c126_violated_long (c := c) (env := env) (x := x) (other := other) r
    ((run World.init (readmeUsers ms1 ms2 create one all)).routes.map (·.handler)) q hu lone_guest rfl (by decide) hb hb s
  refine ⟨h1, ?_⟩
  obtain ⟨f', res, k1, k2, _⟩ := c134_prefix_partial (c := c) (env := env) hl ms1 ms2 create one all hload { q with path := b!"/users" }
    (by rw [hm]; simp [Ascii]) hb (by simp) (fits_of_peak b!"/users" (by decide)) s
  have hres := k2 ((toUpper_eq_iff (other := id) (by simp [Ascii]) (by rw [hm]; simp [Ascii])).1 (by rw [hm])) (by show segmentsOf b!"/users" = _; decide)
  refine ⟨max f f', fun g hg => ?_⟩
  rw [h2 g (by omega)]
  have := k1 g (by omega)
  rw [hres] at this
  exact this

/-- A path with twenty segments has more than 19 pieces; both applications start, and in an application with a route for `/` that route is run. -/
example : ¬ Fits (slash :: joinWith slash (List.replicate 20 b!"a")) ∧ freshBuf.length = 19 ∧ Ascii b!"GET" ∧ Lone b!"users" ∧ FoldLaws plainExt.eqFold ∧
    (∃ r, load plainExt id (newRouter false) 0 (run World.init (readmeClone [noting b!"log"] (showing b!"x") (showing b!"y") (showing b!"z"))).routes = some r) ∧
    (∃ r, load plainExt id (newRouter false) 0 (run World.init (readmeUsers [noting b!"log"] [] (showing b!"x") (showing b!"y") (showing b!"z"))).routes = some r) ∧
    tried (run World.init [Mux.handleGet 0 b!"/" (showing b!"x") [], Mux.handleGet 0 b!"/**" (showing b!"y") [noting b!"any"]]).routes
      { req := { method := b!"GET" }, path := slash :: joinWith slash (List.replicate 20 b!"a") } 20 [] = some ([200], [[]]) := by
  refine ⟨fun h => ?_, by decide, by simp [Ascii], ⟨by decide, by decide, by decide⟩, plainExt_laws, ?_, ?_, by decide +kernel⟩
  · exact absurd (h _ (List.prefix_refl _)) (by decide +kernel)
  · exact Option.isSome_iff_exists.1 (by decide +kernel)
  · exact Option.isSome_iff_exists.1 (by decide +kernel)

end Gofre.Props
