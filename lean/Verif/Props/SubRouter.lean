import Verif.Props.App
import Verif.Props.Readme

/-! # C134: the sub-routers of the README -/

namespace Gofre.Props
open Gofre.Http Gofre.Response Gofre.Spec Gofre.Serve Gofre.Path Gofre.MW Gofre.Stack Gofre.App
open Gofre.Mux (World run)
variable {σ : Type} {env : Env} {c : Codec} {x : Ext} {other : Str → Str}

/-- The segments of a pattern whose segments are texts and variables. -/
def textOrVar (s : Segment) : Prop := s.kind = .literal ∨ s.kind = .capture

/-- Applications all of whose patterns consist of texts and variables, and no pattern of which begins with another kind of segment at a place where another ends:
a request runs the chain of a route that is for it, and gets 404 if there is none. -/
theorem texts_served (hl : FoldLaws x.eqFold) (ops : List (Mux.Op (AHandler σ)))
    {r : Router} (hload : load x other (newRouter false) 0 (run World.init ops).routes = some r)
    (q : AReq) (hm : Ascii q.req.method) (hms : ∀ rt ∈ routesMade ops.reverse, Ascii rt.method)
    (hpats : ∀ p ∈ patternsOf x false (routesMade ops.reverse), (∀ s ∈ p.segments, textOrVar s) ∧ (pieces p.raw).length ≤ 19)
    (hfirst : ∀ p ∈ patternsOf x false (routesMade ops.reverse), ∀ p' ∈ patternsOf x false (routesMade ops.reverse),
      ∀ k, k < p.segments.length → kinds (p.segments.take k) = (kinds p'.segments).take k)
    (hfew : (routesMade ops.reverse).length < 65536)
    {buf : List USeg} (hb : buf.length = 19) (hlen : q.path.length ≤ 65535) (hf : Fits q.path) (s : σ) :
    ∃ f res, (∀ g, f ≤ g → serveApp (c := c) x other env r ((run World.init ops).routes.map (·.handler)) q buf g s = some res) ∧
      (((¬ ∃ rt ∈ routesMade ops.reverse, ∃ vars, Serves x false rt q.req.method q.path vars) ∧ res = (bare 404, s)) ∨
        ∃ rt ∈ routesMade ops.reverse, ∃ vars, Serves x false rt q.req.method q.path vars ∧
          res = (deliver env (shown q) (rt.handler (fun n => some (vars n)) {} q.req s).1, (rt.handler (fun n => some (vars n)) {} q.req s).2)) := by
  have hall : ∀ p ∈ patternsOf x false (routesOn q.req.method (routesMade ops.reverse)), p ∈ patternsOf x false (routesMade ops.reverse) := by
    intro p hp
    unfold patternsOf routesOn at hp
    rw [List.mem_filterMap] at hp
    obtain ⟨rt, hrt, e⟩ := hp
    unfold patternsOf
    rw [List.mem_filterMap]
    exact ⟨rt, (List.mem_filter.1 hrt).1, e⟩
  have hk : ∀ p ∈ patternsOf x false (routesOn q.req.method (routesMade ops.reverse)), ∀ s ∈ p.segments, s.kind ≠ .regex ∧ s.kind ≠ .constraint ∧ s.kind ≠ .multiple := by
    intro p hp s hs
    rcases (hpats p (hall p hp)).1 s hs with h | h <;> simp [h]
  obtain ⟨f, res, h1, h2⟩ := c126_exact_partial (c := c) (env := env) hl ops hload q hm hms rfl
    (fun p hp => ⟨fun s hs => ⟨fun h => absurd h (hk p hp s hs).2.1, fun h => absurd h (hk p hp s hs).1⟩, (hpats p (hall p hp)).2,
      fun a t b e h => absurd h (hk p hp t (by rw [e]; simp)).2.2⟩)
    hfew hb hlen hf
    ⟨fun p hp s hs h => absurd h (hk p hp s hs).1, (fun h => by cases h), (fun h => by cases h)⟩
    (fun p hp _ _ s hs _ _ h => absurd h (hk p hp s hs).1)
    (List.pairwise_of_forall_mem_list fun p hp _ _ s hs _ _ h => absurd h (hk p hp s hs).2.1) s
  have hnot : ∀ rt ∈ routesMade ops.reverse, ∀ p, parsePattern x false rt.path = .ok p →
      ¬ Hidden x false (patternsOf x false (routesOn q.req.method (routesMade ops.reverse))) (segmentsOf q.path) p.segments := by
    rintro rt hrt p hp ⟨q', hq', k, h0, hlt, _, _, ks, a, b, e1, e2, hr⟩
    have e := hfirst q' (hall q' hq') p (mem_patternsOf hrt hp) k hlt
    have hkl : k = ks.length + 1 := by
      have := congrArg List.length e1
      simp at this
      omega
    rw [e1, e2, hkl, List.take_of_length_le (by simp)] at e
    have := List.append_cancel_left e
    simp only [List.cons.injEq, and_true] at this
    rw [this] at hr
    exact absurd hr (Nat.lt_irrefl _)
  refine ⟨f, res, h1, ?_⟩
  rcases h2 with ⟨h2, h3⟩ | ⟨rt, hrt, vars, p, h3, _, _, _, h4⟩
  · refine .inl ⟨?_, h2⟩
    rintro ⟨rt, hrt, vars, hs⟩
    obtain ⟨p, bs, hp, _⟩ := hs.described
    exact hnot rt hrt p hp (h3 rt hrt vars p hs hp)
  · exact .inr ⟨rt, hrt, vars, h3, h4⟩

/-- The router of the README for the users, with the common middlewares of the application and of the router for the prefix. -/
def readmeUsers (ms1 ms2 : List (Option (AHandler σ → AHandler σ))) (create one all : AHandler σ) : List (Mux.Op (AHandler σ)) :=
  [.common 0 ms1, .sub 0 b!"/users", .common 1 ms2, Mux.handlePost 1 b!"/{userId}" create [], Mux.handleGet 1 b!"/{userId}" one [], Mux.handleGet 1 [] all []]

/-- Its routes. -/
theorem users_routes (ms1 ms2 : List (Option (AHandler σ → AHandler σ))) (create one all : AHandler σ) :
    routesMade (readmeUsers ms1 ms2 create one all).reverse =
      [⟨b!"POST", b!"/users/{userId}", wrapAll create (ms1 ++ ms2)⟩, ⟨b!"GET", b!"/users/{userId}", wrapAll one (ms1 ++ ms2)⟩,
        ⟨b!"GET", b!"/users", wrapAll all (ms1 ++ ms2)⟩] := rfl

/-- The variables of a request for one user. -/
def userId (u : Str) : Str → Str := fun n => if n = b!"userId" then u else []

theorem serves_text {m : Str} {h : AHandler σ} {method path : Str} {vars : Str → Str} {raw v : Str} {p : Pattern}
    (hp : parsePattern x false raw = .ok p) (hs : p.segments = [{ val := v, kind := .literal }]) :
    Serves x false ⟨m, raw, h⟩ method path vars ↔ SameMethod m method ∧ segmentsOf path = [v] ∧ vars = fun _ => [] := by
  constructor
  · rintro ⟨h1, p', bs, h2, h3, h4⟩
    simp only [hp, PRes.ok.injEq] at h2
    subst h2
    rw [hs] at h3 h4
    obtain ⟨u, vs, e1, e2, e3⟩ := (describes_one (by simp)).1 ⟨bs, h3⟩
    rw [describes_nil] at e3
    rw [fit_literal] at e2
    subst e2 e3
    refine ⟨h1, e1, funext fun n => ?_⟩
    rw [h4 n]
    cases bs <;> simp [valueIn]
  · rintro ⟨h1, h2, rfl⟩
    have : Describes x false p.segments (segmentsOf path) := by
      rw [hs, describes_one (by simp)]
      exact ⟨v, [], h2, fit_literal.2 rfl, describes_nil.2 rfl⟩
    obtain ⟨bs, hb⟩ := this
    refine ⟨h1, p, bs, hp, hb, fun n => ?_⟩
    rw [hs]
    cases bs <;> simp [valueIn]

theorem serves_var {m : Str} {h : AHandler σ} {method path : Str} {vars : Str → Str} {raw v w n : Str} {p : Pattern}
    (hp : parsePattern x false raw = .ok p) (hs : p.segments = [{ val := v, kind := .literal }, { val := w, kind := .capture, varName := n }]) :
    Serves x false ⟨m, raw, h⟩ method path vars ↔
      SameMethod m method ∧ ∃ u, segmentsOf path = [v, u] ∧ vars = fun k => if k = n then u else [] := by
  have hlay : ∀ u, Layout x false p.segments [v, u] [[v], [u]] := by
    intro u
    rw [hs]
    refine ⟨.cons ⟨fun _ => rfl, ?_⟩ (.cons ⟨fun _ => rfl, ?_⟩ .nil), rfl, ?_⟩
    · intro t ht
      rw [List.mem_singleton.1 ht]
      exact fit_literal.2 rfl
    · intro t _
      exact True.intro
    · intro s he hk
      simp at he
      subst he
      cases hk
  have hval : ∀ u k, (valueIn k p.segments [[v], [u]]).getD [] = if k = n then u else [] := by
    intro u k
    rw [hs]
    by_cases e : n = k
    · simp [valueIn, e]
    · have : ¬ k = n := fun h => e h.symm
      simp [valueIn, e, this]
  have hst : StarsLast p.segments := by
    intro a t b e hk
    have ht : t ∈ p.segments := by rw [e]; simp
    rw [hs] at ht
    simp at ht
    rcases ht with rfl | rfl <;> cases hk
  constructor
  · rintro ⟨h1, p', bs, h2, h3, h4⟩
    simp only [hp, PRes.ok.injEq] at h2
    subst h2
    have hd : Describes x false p.segments (segmentsOf path) := ⟨bs, h3⟩
    rw [hs] at hd
    obtain ⟨a, u, e1, e2, _⟩ := (describes_two (by simp) (by simp)).1 hd
    rw [fit_literal] at e2
    subst e2
    rw [e1] at h3
    refine ⟨h1, u, e1, funext fun k => ?_⟩
    rw [h4 k, layout_unique hst h3 (hlay u), hval]
  · rintro ⟨h1, u, h2, rfl⟩
    exact ⟨h1, p, _, hp, by rw [h2]; exact hlay u, fun k => (hval u k).symm⟩

/-- What the server does with the response and the state of the handler `h` for the request. -/
def answered (env : Env) (q : AReq) (h : AHandler σ) (vars : Str → Str) (s : σ) : WRes c × σ :=
  (deliver env (shown q) (h (fun n => some (vars n)) {} q.req s).1, (h (fun n => some (vars n)) {} q.req s).2)

theorem not_both {m : Str} (h : SameMethod b!"GET" m) (h' : SameMethod b!"POST" m) : False := by
  have := h.length
  have := h'.length
  simp only [List.length_cons, List.length_nil] at *
  omega

/-- C134, the router for a prefix: the requests of the README run the documented handler behind the middlewares of the application and those of the
router, in this order; all other requests get 404 and run nothing. -/
theorem c134_prefix_partial (hl : FoldLaws x.eqFold) (ms1 ms2 : List (Option (AHandler σ → AHandler σ))) (create one all : AHandler σ)
    {r : Router} (hload : load x other (newRouter false) 0 (run World.init (readmeUsers ms1 ms2 create one all)).routes = some r)
    (q : AReq) (hm : Ascii q.req.method) {buf : List USeg} (hb : buf.length = 19) (hlen : q.path.length ≤ 65535) (hf : Fits q.path) (s : σ) :
    ∃ f res, (∀ g, f ≤ g →
        serveApp (c := c) x other env r ((run World.init (readmeUsers ms1 ms2 create one all)).routes.map (·.handler)) q buf g s = some res) ∧
      (SameMethod b!"GET" q.req.method → segmentsOf q.path = [b!"users"] → res = answered env q (wrapAll all (ms1 ++ ms2)) (fun _ => []) s) ∧
      (∀ u, SameMethod b!"GET" q.req.method → segmentsOf q.path = [b!"users", u] → res = answered env q (wrapAll one (ms1 ++ ms2)) (userId u) s) ∧
      (∀ u, SameMethod b!"POST" q.req.method → segmentsOf q.path = [b!"users", u] → res = answered env q (wrapAll create (ms1 ++ ms2)) (userId u) s) ∧
      (¬ (SameMethod b!"GET" q.req.method ∧ segmentsOf q.path = [b!"users"]) →
        (∀ u, segmentsOf q.path = [b!"users", u] → ¬ SameMethod b!"GET" q.req.method ∧ ¬ SameMethod b!"POST" q.req.method) →
        res = (bare 404, s)) := by
  have hpt : parsePattern x false b!"/users" = .ok (patOf x false b!"/users" 0) := rfl
  have hpv : parsePattern x false b!"/users/{userId}" = .ok (patOf x false b!"/users/{userId}" 0) := rfl
  have hst : (patOf x false b!"/users" 0).segments = [{ val := b!"users", kind := .literal }] := rfl
  have hsv : (patOf x false b!"/users/{userId}" 0).segments =
    [{ val := b!"users", kind := .literal }, { val := b!"{userId}", kind := .capture, varName := b!"userId" }] := rfl
  have hr := users_routes ms1 ms2 create one all
  have hp : patternsOf x false (routesMade (readmeUsers ms1 ms2 create one all).reverse) =
    [patOf x false b!"/users/{userId}" 0, patOf x false b!"/users/{userId}" 0, patOf x false b!"/users" 0] := by
    rw [hr]
    simp only [patternsOf, List.filterMap_cons, List.filterMap_nil, hpv, hpt]
  obtain ⟨f, res, h1, h2⟩ := texts_served (c := c) (env := env) hl _ hload q hm (by rw [hr]; simp [Ascii])
    (by
      rw [hp]
      intro p hp
      simp only [List.mem_cons, List.not_mem_nil, or_false, or_self_left] at hp
      rcases hp with rfl | rfl
      · exact ⟨by rw [hsv]; simp [textOrVar], by rw [parse_raw hpv]; decide⟩
      · exact ⟨by rw [hst]; simp [textOrVar], by rw [parse_raw hpt]; decide⟩)
    (by
      rw [hp]
      intro p hp p' hp' k hk
      simp only [List.mem_cons, List.not_mem_nil, or_false, or_self_left] at hp hp'
      rcases hp with rfl | rfl <;> rcases hp' with rfl | rfl <;> simp only [hsv, hst, List.length_cons, List.length_nil] at hk ⊢ <;>
        rcases k with _ | _ | k <;> first | rfl | omega)
    (by rw [hr]; simp) hb hlen hf s
  refine ⟨f, res, h1, ?_⟩
  rw [hr] at h2
  simp only [List.mem_cons, List.not_mem_nil, or_false, exists_eq_or_imp, exists_eq_left, serves_text hpt hst, serves_var hpv hsv] at h2
  rcases h2 with ⟨hno, rfl⟩ | ⟨vars, ⟨hg', v, e, rfl⟩, rfl⟩ | ⟨vars, ⟨hg', v, e, rfl⟩, rfl⟩ | ⟨vars, ⟨hg', e, rfl⟩, rfl⟩
  · refine ⟨fun hg he => absurd (.inr (.inr ⟨_, hg, he, rfl⟩)) hno, fun u hg he => absurd (.inr (.inl ⟨_, hg, u, he, rfl⟩)) hno,
      fun u hg he => absurd (.inl ⟨_, hg, u, he, rfl⟩) hno, fun _ _ => rfl⟩
  · refine ⟨fun hg he => (not_both hg hg').elim, fun u hg he => (not_both hg hg').elim, fun u hg he => ?_, fun _ hn => absurd hg' (hn v e).2⟩
    rw [e] at he
    simp only [List.cons.injEq, and_true, true_and] at he
    subst he
    rfl
  · refine ⟨fun hg he => ?_, fun u hg he => ?_, fun u hg he => (not_both hg' hg).elim, fun _ hn => absurd hg' (hn v e).1⟩
    · rw [e] at he
      simp at he
    · rw [e] at he
      simp only [List.cons.injEq, and_true, true_and] at he
      subst he
      rfl
  · refine ⟨fun hg he => rfl, fun u hg he => ?_, fun u hg he => (not_both hg' hg).elim, fun hn _ => absurd ⟨hg', e⟩ hn⟩
    rw [e] at he
    simp at he

/-- The application of the README with the health check registered on a clone, before the middlewares. -/
def readmeClone (ms : List (Option (AHandler σ → AHandler σ))) (health api1 api2 : AHandler σ) : List (Mux.Op (AHandler σ)) :=
  [.clone 0, Mux.handleGet 1 b!"/health" health [], .common 0 ms, Mux.handleGet 0 b!"/api1" api1 [], Mux.handleGet 0 b!"/api2" api2 []]

/-- Its routes. -/
theorem clone_routes (ms : List (Option (AHandler σ → AHandler σ))) (health api1 api2 : AHandler σ) :
    routesMade (readmeClone ms health api1 api2).reverse =
      [⟨b!"GET", b!"/health", health⟩, ⟨b!"GET", b!"/api1", wrapAll api1 ms⟩, ⟨b!"GET", b!"/api2", wrapAll api2 ms⟩] := rfl

/-- C134, the clone: the health check runs without the middlewares added to the application afterwards, the other two behind them; all other requests
get 404 and run nothing. -/
theorem c134_clone_partial (hl : FoldLaws x.eqFold) (ms : List (Option (AHandler σ → AHandler σ))) (health api1 api2 : AHandler σ)
    {r : Router} (hload : load x other (newRouter false) 0 (run World.init (readmeClone ms health api1 api2)).routes = some r)
    (q : AReq) (hm : Ascii q.req.method) {buf : List USeg} (hb : buf.length = 19) (hlen : q.path.length ≤ 65535) (hf : Fits q.path) (s : σ) :
    ∃ f res, (∀ g, f ≤ g →
        serveApp (c := c) x other env r ((run World.init (readmeClone ms health api1 api2)).routes.map (·.handler)) q buf g s = some res) ∧
      (SameMethod b!"GET" q.req.method → segmentsOf q.path = [b!"health"] → res = answered env q health (fun _ => []) s) ∧
      (SameMethod b!"GET" q.req.method → segmentsOf q.path = [b!"api1"] → res = answered env q (wrapAll api1 ms) (fun _ => []) s) ∧
      (SameMethod b!"GET" q.req.method → segmentsOf q.path = [b!"api2"] → res = answered env q (wrapAll api2 ms) (fun _ => []) s) ∧
      (¬ SameMethod b!"GET" q.req.method ∨ (∀ t ∈ [b!"health", b!"api1", b!"api2"], segmentsOf q.path ≠ [t]) → res = (bare 404, s)) := by
  have hp1 : parsePattern x false b!"/health" = .ok (patOf x false b!"/health" 0) := rfl
  have hp2 : parsePattern x false b!"/api1" = .ok (patOf x false b!"/api1" 0) := rfl
  have hp3 : parsePattern x false b!"/api2" = .ok (patOf x false b!"/api2" 0) := rfl
  have hs1 : (patOf x false b!"/health" 0).segments = [{ val := b!"health", kind := .literal }] := rfl
  have hs2 : (patOf x false b!"/api1" 0).segments = [{ val := b!"api1", kind := .literal }] := rfl
  have hs3 : (patOf x false b!"/api2" 0).segments = [{ val := b!"api2", kind := .literal }] := rfl
  have hr := clone_routes ms health api1 api2
  have hp : patternsOf x false (routesMade (readmeClone ms health api1 api2).reverse) =
    [patOf x false b!"/health" 0, patOf x false b!"/api1" 0, patOf x false b!"/api2" 0] := by
    rw [hr]
    simp only [patternsOf, List.filterMap_cons, List.filterMap_nil, hp1, hp2, hp3]
  obtain ⟨f, res, h1, h2⟩ := texts_served (c := c) (env := env) hl _ hload q hm (by rw [hr]; simp [Ascii])
    (by
      rw [hp]
      intro p hp
      simp only [List.mem_cons, List.not_mem_nil, or_false] at hp
      rcases hp with rfl | rfl | rfl
      · exact ⟨by rw [hs1]; simp [textOrVar], by rw [parse_raw hp1]; decide⟩
      · exact ⟨by rw [hs2]; simp [textOrVar], by rw [parse_raw hp2]; decide⟩
      · exact ⟨by rw [hs3]; simp [textOrVar], by rw [parse_raw hp3]; decide⟩)
    (by
      rw [hp]
      intro p hp p' _ k hk
      have : k = 0 := by
        simp only [List.mem_cons, List.not_mem_nil, or_false] at hp
        rcases hp with rfl | rfl | rfl <;> simp only [hs1, hs2, hs3, List.length_cons, List.length_nil] at hk <;> omega
      subst this
      rfl)
    (by rw [hr]; simp) hb hlen hf s
  refine ⟨f, res, h1, ?_⟩
  rw [hr] at h2
  simp only [List.mem_cons, List.not_mem_nil, or_false, exists_eq_or_imp, exists_eq_left, serves_text hp1 hs1, serves_text hp2 hs2, serves_text hp3 hs3] at h2
  rcases h2 with ⟨hno, rfl⟩ | ⟨vars, ⟨hg', e, rfl⟩, rfl⟩ | ⟨vars, ⟨hg', e, rfl⟩, rfl⟩ | ⟨vars, ⟨hg', e, rfl⟩, rfl⟩
  · exact ⟨fun hg he => absurd (.inl ⟨_, hg, he, rfl⟩) hno, fun hg he => absurd (.inr (.inl ⟨_, hg, he, rfl⟩)) hno,
      fun hg he => absurd (.inr (.inr ⟨_, hg, he, rfl⟩)) hno, fun _ => rfl⟩
  · refine ⟨fun _ _ => rfl, fun _ he => ?_, fun _ he => ?_, fun hn => hn.elim (absurd hg') fun hn => absurd e (hn _ (by simp))⟩ <;>
      rw [e] at he <;> simp at he
  · refine ⟨fun _ he => ?_, fun _ _ => rfl, fun _ he => ?_, fun hn => hn.elim (absurd hg') fun hn => absurd e (hn _ (by simp))⟩ <;>
      rw [e] at he <;> simp at he
  · refine ⟨fun _ he => ?_, fun _ he => ?_, fun _ _ => rfl, fun hn => hn.elim (absurd hg') fun hn => absurd e (hn _ (by simp))⟩ <;>
      rw [e] at he <;> simp at he

/-- Both applications start, and the requests of the README are answered as documented: the middlewares note their names. -/
example : tried (run World.init (readmeUsers [noting b!"log"] [noting b!"auth"] (showing b!"new") (showing b!"userId") (showing b!"all"))).routes
      { req := { method := b!"GET" }, path := b!"/users/7" } 20 [] = some ([200], [b!"log", b!"auth", b!"7"]) ∧
    tried (run World.init (readmeUsers [noting b!"log"] [noting b!"auth"] (showing b!"userId") (showing b!"x") (showing b!"x"))).routes
      { req := { method := b!"POST" }, path := b!"/users/7" } 20 [] = some ([200], [b!"log", b!"auth", b!"7"]) ∧
    tried (run World.init (readmeUsers [noting b!"log"] [noting b!"auth"] (showing b!"x") (showing b!"x") (showing b!"userId"))).routes
      { req := { method := b!"GET" }, path := b!"/users" } 20 [] = some ([200], [b!"log", b!"auth", []]) ∧
    tried (run World.init (readmeUsers [noting b!"log"] [noting b!"auth"] (showing b!"x") (showing b!"x") (showing b!"x"))).routes
      { req := { method := b!"POST" }, path := b!"/users" } 20 [] = some ([404], []) ∧
    tried (run World.init (readmeClone [noting b!"auth"] (showing b!"x") (showing b!"x") (showing b!"x"))).routes
      { req := { method := b!"GET" }, path := b!"/health" } 20 [] = some ([200], [[]]) ∧
    tried (run World.init (readmeClone [noting b!"auth"] (showing b!"x") (showing b!"x") (showing b!"x"))).routes
      { req := { method := b!"GET" }, path := b!"/api2" } 20 [] = some ([200], [b!"auth", []]) := by
  refine ⟨?_, ?_, ?_, ?_, ?_, ?_⟩ <;> decide +kernel

/-- The hypotheses of both theorems hold. -/
example : FoldLaws plainExt.eqFold ∧ Ascii b!"POST" ∧ freshBuf.length = 19 ∧ Fits b!"/users/7" ∧ segmentsOf b!"/users/7" = [b!"users", b!"7"] ∧
    (∃ r, load plainExt id (newRouter false) 0 (run World.init (readmeUsers [noting b!"log"] [] (showing b!"x") (showing b!"y") (showing b!"z"))).routes = some r) ∧
    ∃ r, load plainExt id (newRouter false) 0 (run World.init (readmeClone [noting b!"log"] (showing b!"x") (showing b!"y") (showing b!"z"))).routes = some r := by
  refine ⟨plainExt_laws, by simp only [Ascii]; decide, by decide, fits_of_peak _ (by decide), by decide, ?_, ?_⟩
  · exact Option.isSome_iff_exists.1 (by decide +kernel)
  · exact Option.isSome_iff_exists.1 (by decide +kernel)

end Gofre.Props
