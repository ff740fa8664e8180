import Verif.Props.MuxSame
import Verif.Props.Route

/-! # C81, C83: what common middlewares guard, and where routes are -/

namespace Gofre.Props
open Gofre.Mux Gofre.Spec
variable {H : Type}

theorem wrapAll_append (h : H) (a b : List (Option (H → H))) : wrapAll h (a ++ b) = wrapAll (wrapAll h b) a := by
  induction a with
  | nil => rfl
  | cons m a ih => cases m <;> simp [wrapAll, ih]

/-- All muxes have the middlewares, all routes are wrapped by them or excused. -/
structure AllGuarded (ms : List (Option (H → H))) (ok : Route H → Prop) (w : World H) : Prop where
  muxes : ∀ m ∈ w.muxes, ms <+: m.common
  routes : ∀ r ∈ w.routes, (∃ k, r.handler = wrapAll k ms) ∨ ok r

theorem deref_mem {w : World H} {v i : Nat} {m : Mux H} (h : w.deref v = some (i, m)) : m ∈ w.muxes := by
  unfold World.deref at h
  split at h
  · cases h
  · split at h
    · cases h
    · rename_i hm
      simp only [Option.some.injEq, Prod.mk.injEq] at h
      rw [← h.2]
      exact List.mem_of_getElem? hm

theorem guarded_step {ms : List (Option (H → H))} {ok : Route H → Prop} {w : World H} (hw : AllGuarded ms ok w) (op : Op H)
    (hd : ∀ v d, op = .debug v d → ∀ pre, ∀ e ∈ debugNames d, ok ⟨b!"GET", joinPath pre e.1, e.2⟩) :
    AllGuarded ms ok (step w op) := by
  cases op with
  | debug v d =>
    simp only [step]
    split
    · exact hw
    · rename_i i m hm
      refine ⟨hw.muxes, ?_⟩
      intro r hr
      rcases List.mem_append.1 hr with hr | hr
      · exact hw.routes r hr
      · obtain ⟨e, he, rfl⟩ := List.mem_map.1 hr
        rw [resolvePath_eq]
        exact .inr (hd v d rfl _ e (by simpa [debugTable, debugNames] using he))
  | clone v =>
    simp only [step]
    split
    · exact hw
    · rename_i i m hm
      refine ⟨?_, hw.routes⟩
      intro n hn
      rcases List.mem_append.1 hn with hn | hn
      · exact hw.muxes n hn
      · simp only [List.mem_singleton] at hn
        subst hn
        exact hw.muxes m (deref_mem hm)
  | sub v p =>
    simp only [step]
    split
    · exact hw
    · rename_i i m hm
      split
      · exact ⟨hw.muxes, hw.routes⟩
      · refine ⟨?_, hw.routes⟩
        intro n hn
        rcases List.mem_append.1 hn with hn | hn
        · exact hw.muxes n hn
        · simp only [List.mem_singleton] at hn
          subst hn
          exact hw.muxes m (deref_mem hm)
  | common v ns =>
    simp only [step]
    split
    · exact hw
    · rename_i i m hm
      refine ⟨?_, hw.routes⟩
      intro n hn
      rcases List.mem_or_eq_of_mem_set hn with hn | hn
      · exact hw.muxes n hn
      · subst hn
        exact (hw.muxes m (deref_mem hm)).trans (List.prefix_append _ _)
  | handle v method path h own =>
    simp only [step]
    split
    · exact hw
    · rename_i i m hm
      refine ⟨hw.muxes, ?_⟩
      intro r hr
      rcases List.mem_append.1 hr with hr | hr
      · exact hw.routes r hr
      · simp only [List.mem_singleton] at hr
        subst hr
        obtain ⟨rest, he⟩ := hw.muxes m (deref_mem hm)
        exact .inl ⟨wrapAll (wrapAll h own) rest, by rw [wrapMiddleware_eq, wrapMiddleware_eq, ← he, wrapAll_append]⟩

theorem step_routes (rs : List (Route H)) (w : World H) (op : Op H) :
    step { w with routes := rs ++ w.routes } op = { step w op with routes := rs ++ (step w op).routes } := by
  have hd : ∀ v, World.deref { w with routes := rs ++ w.routes } v = w.deref v := fun v => rfl
  cases op with
  | clone v => simp only [step, hd]; split <;> rfl
  | sub v p =>
    simp only [step, hd]
    split
    · rfl
    · split <;> rfl
  | common v ms => simp only [step, hd]; split <;> rfl
  | handle v method path h ms =>
    simp only [step, hd]
    split
    · rfl
    · simp
  | debug v d =>
    simp only [step, hd]
    split
    · rfl
    · simp

theorem run_routes (rs : List (Route H)) : ∀ (ops : List (Op H)) (w : World H),
    run { w with routes := rs ++ w.routes } ops = { run w ops with routes := rs ++ (run w ops).routes } := by
  intro ops
  induction ops with
  | nil => intro w; rfl
  | cons op ops ih =>
    intro w
    show run (step { w with routes := rs ++ w.routes } op) ops = _
    rw [step_routes, ih]
    rfl

/-- What an application does at the start: its own routes do not depend on the configuration, and
come after the route of the assets. -/
theorem new_routes (cfg : Str) (res : Option Str) (files : Str → H) (ops : List (Op H)) :
    (run (World.new cfg res files) ops).routes = (World.new cfg res files).routes ++ (run World.init ops).routes := by
  have : World.new cfg res files = { (World.init : World H) with routes := (World.new cfg res files).routes ++ (World.init : World H).routes } := by
    cases res <;> rfl
  rw [this, run_routes]
  cases res <;> rfl

/-- A route of the debug endpoints that the program switches on. -/
def DebugRoute (ops : List (Op H)) (r : Route H) : Prop :=
  ∃ v d pre e, Op.debug v d ∈ ops ∧ e ∈ debugNames d ∧ r = ⟨b!"GET", joinPath pre e.1, e.2⟩

/-- The route of the assets. -/
def AssetsRoute (cfg : Str) (res : Option Str) (files : Str → H) (r : Route H) : Prop :=
  ∃ mapping, res = some mapping ∧
    r = ⟨b!"GET", assetsPrefix cfg mapping ++ b!"**", files (assetsPrefix cfg mapping)⟩

/-- C81, exactly: middlewares given to the first mux before anything else wrap, as the outermost
ones, the handler of every route of the application other than the assets and the debug endpoints. -/
theorem c81_exact (cfg : Str) (res : Option Str) (files : Str → H) (ms : List (Option (H → H))) (ops : List (Op H)) :
    ∀ r ∈ (run (World.new cfg res files) (.common 0 ms :: ops)).routes,
      (∃ k, r.handler = wrapAll k ms) ∨ AssetsRoute cfg res files r ∨ DebugRoute ops r := by
  have h0 : AllGuarded ms (fun r => AssetsRoute cfg res files r ∨ DebugRoute ops r) (step (World.new cfg res files) (.common 0 ms)) := by
    refine ⟨?_, ?_⟩
    · intro m hm
      simp [step, World.new, World.init, World.deref] at hm
      subst hm
      exact List.prefix_refl _
    · intro r hr
      cases res with
      | none => simp [step, World.new, World.init, World.deref] at hr
      | some mapping =>
        simp [step, World.new, World.init, World.deref] at hr
        exact .inr (.inl ⟨mapping, rfl, hr⟩)
  suffices h : ∀ (rest : List (Op H)) (w : World H), (∀ op ∈ rest, op ∈ ops) → AllGuarded ms (fun r => AssetsRoute cfg res files r ∨ DebugRoute ops r) w →
      AllGuarded ms (fun r => AssetsRoute cfg res files r ∨ DebugRoute ops r) (run w rest) from
    (h ops _ (fun _ h => h) h0).routes
  intro rest
  induction rest with
  | nil => intro w _ hw; exact hw
  | cons op rest ih =>
    intro w hsub hw
    refine ih _ (fun o ho => hsub o (List.mem_cons_of_mem _ ho)) (guarded_step hw op ?_)
    rintro v d rfl pre e he
    exact .inr ⟨v, d, pre, e, hsub _ List.mem_cons_self, he, rfl⟩

/-- C81 fails for the debug endpoints of every program: wherever they are switched on, and whatever the common middlewares, each is
registered with the handler of the library as it is. -/
theorem c81_violated_never (cfg : Str) (res : Option Str) (files : Str → H) (before after : List (Op H)) (v : Nat) (d : Debug H)
    (hv : v < count before.reverse) : ∀ e ∈ debugNames d, ∃ pre,
      (⟨b!"GET", joinPath pre e.1, e.2⟩ : Route H) ∈ (run (World.new cfg res files) (before ++ .debug v d :: after)).routes := by
  intro e he
  refine ⟨prefixAt before.reverse v, ?_⟩
  rw [new_routes, (same_run _).routes]
  refine List.mem_append.2 (.inr ?_)
  have key : ∀ (after : List (Op H)) {ops : List (Op H)} {r : Route H}, r ∈ routesMade ops → r ∈ routesMade (after ++ ops) := by
    intro after
    induction after with
    | nil => intro ops r h; exact h
    | cons a after ih =>
      intro ops r h
      have := ih h
      cases a <;> simp only [List.cons_append, routesMade] <;> first | exact this | (split <;> simp [this])
  rw [List.reverse_append, List.reverse_cons, List.append_assoc]
  refine key _ ?_
  simp only [List.cons_append, List.nil_append, routesMade, if_pos hv]
  exact List.mem_append.2 (.inr (List.mem_map.2 ⟨e, he, rfl⟩))

/-- C81 for applications without static assets and debug endpoints: middlewares given to the
first mux before anything else wrap, as the outermost ones, the handler of every route the
program registers, on whichever router and however it was made. -/
theorem c81_guarded_partial (cfg : Str) (files : Str → H) (ms : List (Option (H → H))) (ops : List (Op H)) (hno : ¬ UsesDebug ops) :
    ∀ r ∈ (run (World.new cfg none files) (.common 0 ms :: ops)).routes, ∃ k, r.handler = wrapAll k ms := by
  intro r hr
  rcases c81_exact cfg none files ms ops r hr with h | ⟨mapping, h, _⟩ | ⟨v, d, _, _, h, _⟩
  · exact h
  · cases h
  · exact absurd ⟨v, d, h⟩ hno

/-- C81 is met by the routes of an OAuth2 flow on a sub-router and a route with its own middleware. -/
example : ¬ UsesDebug (H := Nat) ([.sub 0 b!"/api"] ++ oauthOps 1 b!"/oauth/initiate" b!"/oauth/authorize" 5 6 [] [some (· + 1)] ++
      [.handle 0 b!"GET" b!"/x" 7 [some (· + 1)]]) ∧
    (run (World.new b!"/" none fun _ => 0) (.common 0 [some (· * 10)] :: ([.sub 0 b!"/api"] ++
      oauthOps 1 b!"/oauth/initiate" b!"/oauth/authorize" 5 6 [] [some (· + 1)] ++ [.handle 0 b!"GET" b!"/x" 7 [some (· + 1)]]))).routes.map
      (fun r => (r.path, r.handler)) =
      [(b!"/api/oauth/initiate", 50), (b!"/api/oauth/authorize/{providerName}", 70), (b!"/x", 80)] := by
  refine ⟨?_, by decide⟩
  rintro ⟨v, d, h⟩
  simp [oauthOps] at h

/-- C81 fails for the debug endpoints: they are registered without the common middlewares. -/
theorem c81_violated : ∃ (ms : List (Option (Nat → Nat))) (d : Debug Nat), ∀ p ∈ (debugNames d).map (·.1),
    ∃ r ∈ (run (World.new b!"/" none fun _ => 0) [.common 0 ms, .debug 0 d]).routes, r.method = b!"GET" ∧ r.path = p ∧
      ¬ ∃ k, r.handler = wrapAll k ms := by
  refine ⟨[some fun _ => 1], ⟨0, 0, 0, 0, 0, 0⟩, ?_⟩
  have h : (run (World.new b!"/" none fun _ => 0) [.common 0 [some fun _ => 1], .debug 0 ⟨0, 0, 0, 0, 0, 0⟩]).routes =
      (debugNames (⟨0, 0, 0, 0, 0, 0⟩ : Debug Nat)).map fun e => ⟨b!"GET", e.1, e.2⟩ := rfl
  intro p hp
  obtain ⟨e, he, rfl⟩ := List.mem_map.1 hp
  refine ⟨⟨b!"GET", e.1, e.2⟩, by rw [h]; exact List.mem_map.2 ⟨e, he, rfl⟩, rfl, rfl, ?_⟩
  rintro ⟨k, hk⟩
  have h0 : ∀ e ∈ debugNames (⟨0, 0, 0, 0, 0, 0⟩ : Debug Nat), e.2 = 0 := by decide
  have h0 := h0 e he
  simp [wrapAll, h0] at hk

/-- C81 fails for the static assets, whose route exists before a middleware can be given. -/
theorem c81_violated_assets : ∃ (ms : List (Option (Nat → Nat))),
    ∃ r ∈ (run (World.new b!"/" (some []) fun _ => 0) [.common 0 ms]).routes, r.path = b!"/assets/**" ∧ ¬ ∃ k, r.handler = wrapAll k ms := by
  refine ⟨[some fun _ => 1], ⟨b!"GET", b!"/assets/**", 0⟩, ?_, rfl, ?_⟩
  · exact List.mem_singleton.2 rfl
  · rintro ⟨k, hk⟩
    simp [wrapAll] at hk

/-! ### C83 -/

/-- C83 with the default context path: every route of every program is at the context path
joined with the prefixes and the path it was given (sub-routers as in C30). -/
theorem c83_default_partial (cfg : Str) (hcfg : cfg = [] ∨ cfg = b!"/") (res : Option Str) (files : Str → H) (ops : List (Op H))
    (hs : ∀ r ∈ routesMade ops.reverse, r.path.head? = some slash) :
    ((run (World.new cfg res files) ops).routes.drop (World.new cfg res files).routes.length).map (·.path) =
      (routesMade ops.reverse).map fun r => joinPath (if cfg = [] then b!"/" else cfg) r.path := by
  have hcfg : (if cfg = [] then b!"/" else cfg) = b!"/" := by rcases hcfg with rfl | rfl <;> rfl
  rw [hcfg, new_routes, List.drop_left, (same_run ops).routes]
  apply List.map_congr_left
  intro r h
  have := hs r h
  cases hp : r.path with
  | nil => rw [hp] at this; simp at this
  | cons c p => rw [hp] at this; simp at this; subst this; simp [joinPath]

example : (∀ r ∈ routesMade ([.sub 0 b!"/api", .handle 1 b!"GET" b!"/users" 1 []] : List (Op Nat)).reverse, r.path.head? = some slash) ∧
    (run (World.new [] (some []) fun _ => 0) [.sub 0 b!"/api", .handle 1 b!"GET" b!"/users" 1 []]).routes.map (·.path) =
      [b!"/assets/**", b!"/api/users"] := by
  refine ⟨?_, by decide⟩
  intro r h
  simp [routesMade, count, prefixAt, Idle, joinPath] at h
  rw [h]
  rfl

/-- Only the root as context path leaves a path that starts with a slash where it is. -/
theorem join_context (a p : Str) (hp : p.head? = some slash) : p = joinPath (if a = [] then b!"/" else a) p ↔ a = [] ∨ a = b!"/" := by
  obtain ⟨q, rfl⟩ : ∃ q, p = slash :: q := by
    cases p with
    | nil => simp at hp
    | cons c q => simp at hp; exact ⟨q, by rw [hp]⟩
  by_cases ha : a = []
  · subst ha; simp [joinPath]
  · rw [if_neg ha]
    simp only [joinPath, ha, false_or, List.head?_cons, if_true, if_false, List.tail_cons, reduceCtorEq]
    constructor
    · intro h
      have hl := congrArg List.length h
      simp only [List.length_append, List.length_cons, List.length_nil] at hl
      have h0 : 0 < a.length := List.length_pos_iff.2 ha
      split at hl
      · rename_i hg
        rw [List.length_dropLast] at hl
        match a, hg with
        | [c], hg => simp at hg; rw [hg]
        | _ :: _ :: _, _ => simp at hl; omega
      · omega
    · rintro rfl
      rfl

/-- C83 exactly: the routes of a program are below the context path if and only if this is the default or the program makes none; with any other context path not one
of its routes is where it should be. -/
theorem c83_exact (cfg : Str) (res : Option Str) (files : Str → H) (ops : List (Op H)) (hs : ∀ r ∈ routesMade ops.reverse, r.path.head? = some slash) :
    (((run (World.new cfg res files) ops).routes.drop (World.new cfg res files).routes.length).map (·.path) =
      ((routesMade ops.reverse).map fun r => joinPath (if cfg = [] then b!"/" else cfg) r.path) ↔ cfg = [] ∨ cfg = b!"/" ∨ routesMade ops.reverse = []) ∧
    (cfg ≠ [] → cfg ≠ b!"/" → ∀ (i : Nat) (a b : Mux.Route H), ((run (World.new cfg res files) ops).routes.drop (World.new cfg res files).routes.length)[i]? = some a →
      (routesMade ops.reverse)[i]? = some b → a.path ≠ joinPath cfg b.path) := by
  have never : cfg ≠ [] → cfg ≠ b!"/" → ∀ r ∈ routesMade ops.reverse, r.path ≠ joinPath cfg r.path := fun h1 h2 r hr h => by
    have := (join_context cfg r.path (hs r hr)).1 (by rw [if_neg h1]; exact h)
    rcases this with h | h
    · exact h1 h
    · exact h2 h
  refine ⟨⟨fun h => ?_, fun h => ?_⟩, fun h1 h2 i a b ha hb => ?_⟩
  · by_cases h1 : cfg = []
    · exact .inl h1
    by_cases h2 : cfg = b!"/"
    · exact .inr (.inl h2)
    refine .inr (.inr ?_)
    rw [new_routes, List.drop_left, (same_run ops).routes, if_neg h1] at h
    cases hm : routesMade ops.reverse with
    | nil => rfl
    | cons r rs =>
      rw [hm] at h
      simp only [List.map_cons, List.cons.injEq] at h
      exact absurd h.1 (never h1 h2 r (by rw [hm]; simp))
  · rcases h with h | h | h
    · exact c83_default_partial cfg (.inl h) res files ops hs
    · exact c83_default_partial cfg (.inr h) res files ops hs
    · rw [new_routes, List.drop_left, (same_run ops).routes, h]
      rfl
  · rw [new_routes, List.drop_left, (same_run ops).routes, hb, Option.some.injEq] at ha
    subst ha
    exact never h1 h2 _ (List.mem_of_getElem? hb)

/-- With `/app` configured, `/users` stays where it is. -/
example : (∀ r ∈ routesMade ([.handle 0 b!"GET" b!"/users" 1 []] : List (Op Nat)).reverse, r.path.head? = some slash) ∧
    (run (World.new b!"/app" none fun _ => 0) [.handle 0 b!"GET" b!"/users" 1 []]).routes.map (·.path) = [b!"/users"] ∧ joinPath b!"/app" b!"/users" = b!"/app/users" := by
  refine ⟨?_, by decide, by decide⟩
  intro r h
  simp [routesMade, count, prefixAt, joinPath] at h
  rw [h]
  rfl

/-- C83 fails for every other context path: whatever it is, a program registers its routes at the
same places. -/
theorem c83_violated : ∀ (cfg : Str) (files : Str → Nat) (ops : List (Op Nat)),
    (run (World.new cfg none files) ops).routes = (run World.init ops).routes := by
  intro cfg files ops
  rw [new_routes]
  rfl

open Gofre.Path in
/-- C83 fails for requests: with the context path `/app`, a GET for `/app/users` is not found
after `HandleGet("/users", …)`, and `/users` is served. -/
theorem c83_violated_request : ∃ (r : Route Nat) (p : Pattern) (m : Matcher),
    (run (World.new b!"/app" none fun _ => 0) [.handle 0 b!"GET" b!"/users" 7 []]).routes = [r] ∧
    p.raw = r.path ∧ p.attachment = r.handler ∧ Registered plainExt false sortSiblings [p] m ∧
    lookup plainExt false m b!"/app/users" freshBuf 20 = some .none ∧
    lookup plainExt false m b!"/users" freshBuf 20 = some (.found p [.literal]) := by
  obtain ⟨ps, m, h1, h2, h3⟩ := checked_spec (x := plainExt) (ci := false) (l := [(b!"/users", 7)])
    (f := fun ps => ps == [patOf plainExt false b!"/users" 7]) (by decide +kernel)
  rw [beq_iff_eq] at h2
  subst h2
  exact ⟨⟨b!"GET", b!"/users", 7⟩, _, m, rfl, by decide +kernel, by decide +kernel, h1, (h3 _ _ _).symm.trans (by decide +kernel),
    (h3 _ _ _).symm.trans (by decide +kernel)⟩

end Gofre.Props
