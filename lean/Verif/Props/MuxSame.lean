import Verif.Spec.MuxSame
import Verif.Props.Mux

/-! # C29, C30: every program -/

namespace Gofre.Props
open Gofre.Mux Gofre.Spec
variable {H : Type}

theorem routerOf_le (ops : List (Op H)) (v : Nat) (hv : v < count ops) : routerOf ops v < count ops := by
  induction ops generalizing v with
  | nil => exact hv
  | cons op ops ih =>
    cases op with
    | common p ms => exact ih v hv
    | handle => exact ih v hv
    | debug => exact ih v hv
    | clone p =>
      simp only [routerOf]
      split
      · exact hv
      · simp only [count] at hv ⊢
        split at hv
        · rename_i hp
          rw [if_pos hp]
          have := ih v (by omega); omega
        · rename_i hp
          rw [if_neg hp]
          exact ih v hv
    | sub p q =>
      simp only [count] at hv ⊢
      by_cases hp : p < count ops
      · rw [if_pos hp] at hv ⊢
        simp only [routerOf]
        split
        · split
          · have := ih p hp; omega
          · omega
        · have := ih v (by omega); omega
      · rw [if_neg hp] at hv ⊢
        simp only [routerOf]
        rw [if_neg (by omega)]
        exact ih v hv

/-- The state of the muxes matches the description. -/
structure InvSame (w : World H) (ops : List (Op H)) : Prop where
  nvals : w.vals.length = count ops
  mux : ∀ v, v < count ops → ∃ i, w.vals[v]? = some i ∧ w.muxes[i]? = some ⟨prefixAt ops v, commonAt ops v⟩
  same : ∀ u v i, u < count ops → v < count ops → w.vals[u]? = some i → (w.vals[v]? = some i ↔ routerOf ops u = routerOf ops v)
  routes : w.routes = routesMade ops

theorem derefs_lt {w : World H} {ops : List (Op H)} (hi : InvSame w ops) {v : Nat} (hv : v < count ops) :
    ∃ i, w.vals[v]? = some i ∧ w.muxes[i]? = some ⟨prefixAt ops v, commonAt ops v⟩ ∧
      w.deref v = some (i, ⟨prefixAt ops v, commonAt ops v⟩) := by
  obtain ⟨i, h1, h2⟩ := hi.mux v hv
  exact ⟨i, h1, h2, by simp [World.deref, h1, h2]⟩

theorem derefs_ge {w : World H} {ops : List (Op H)} (hi : InvSame w ops) {v : Nat} (hv : ¬ v < count ops) :
    w.deref v = none := by
  have : w.vals[v]? = none := by
    apply List.getElem?_eq_none; rw [hi.nvals]; omega
  simp [World.deref, this]

theorem lt_of_getElem? {α} {l : List α} {i : Nat} {a : α} (h : l[i]? = some a) : i < l.length := by
  apply Classical.byContradiction
  intro hn
  rw [List.getElem?_eq_none (by omega)] at h
  cases h

/-- A new router for a new value. -/
theorem same_new {w : World H} {ops ops' : List (Op H)} (hi : InvSame w ops) (m : Mux H)
    (hc : count ops' = count ops + 1)
    (hpre : ∀ v, v < count ops → prefixAt ops' v = prefixAt ops v ∧ commonAt ops' v = commonAt ops v ∧ routerOf ops' v = routerOf ops v)
    (hnew : m = ⟨prefixAt ops' (count ops), commonAt ops' (count ops)⟩) (hrt : routerOf ops' (count ops) = count ops)
    (hroutes : routesMade ops' = routesMade ops) :
    InvSame { w with muxes := w.muxes ++ [m], vals := w.vals ++ [w.muxes.length] } ops' := by
  have hold : ∀ v i, v < count ops → w.vals[v]? = some i → i < w.muxes.length := by
    intro v i hv h
    obtain ⟨j, h1, h2⟩ := hi.mux v hv
    rw [h] at h1; cases h1
    exact lt_of_getElem? h2
  refine ⟨by simp [hi.nvals, hc], ?_, ?_, by rw [hroutes]; exact hi.routes⟩
  · intro v hv
    by_cases h : v < count ops
    · obtain ⟨i, h1, h2⟩ := hi.mux v h
      refine ⟨i, ?_, ?_⟩
      · simp only; rw [getElem?_snoc, hi.nvals, if_pos h]; exact h1
      · simp only; rw [getElem?_snoc, if_pos (lt_of_getElem? h2), h2, (hpre v h).1, (hpre v h).2.1]
    · have : v = count ops := by omega
      subst this
      refine ⟨w.muxes.length, ?_, ?_⟩
      · simp only; rw [getElem?_snoc, hi.nvals, if_neg h, if_pos rfl]
      · simp only; rw [getElem?_snoc, if_neg (by omega), if_pos rfl, hnew]
  · intro u v i hu hv hui
    simp only at hui ⊢
    rw [getElem?_snoc, hi.nvals] at hui ⊢
    by_cases h1 : u < count ops
    · rw [if_pos h1] at hui
      have hl := hold u i h1 hui
      by_cases h2 : v < count ops
      · rw [if_pos h2, (hpre u h1).2.2, (hpre v h2).2.2]
        exact hi.same u v i h1 h2 hui
      · have : v = count ops := by omega
        subst this
        rw [if_neg h2, if_pos rfl, hrt, (hpre u h1).2.2]
        have := routerOf_le ops u h1
        constructor
        · intro e; cases e; omega
        · intro e; omega
    · have : u = count ops := by omega
      subst this
      rw [if_neg h1, if_pos rfl] at hui
      cases hui
      by_cases h2 : v < count ops
      · rw [if_pos h2, hrt, (hpre v h2).2.2]
        have := routerOf_le ops v h2
        constructor
        · intro e; have := hold v _ h2 e; omega
        · intro e; omega
      · have : v = count ops := by omega
        subst this
        simp

theorem same_step {w : World H} {ops : List (Op H)} (hi : InvSame w ops) (op : Op H) : InvSame (step w op) (op :: ops) := by
  cases op with
  | clone p =>
    by_cases hp : p < count ops
    · obtain ⟨i, _, _, hd⟩ := derefs_lt hi hp
      simp only [step, hd]
      refine same_new hi _ (by simp [count, hp]) ?_ (by simp [prefixAt, commonAt]) (by simp [routerOf]) rfl
      intro v hv
      have : v ≠ count ops := by omega
      simp [prefixAt, commonAt, routerOf, this]
    · simp only [step, derefs_ge hi hp]
      have hc : count (Op.clone p :: ops) = count ops := by simp [count, hp]
      have hne : ∀ v, v < count ops → v ≠ count ops := fun v hv => by omega
      refine ⟨by rw [hc]; exact hi.nvals, ?_, ?_, hi.routes⟩
      · intro v hv; rw [hc] at hv; simpa [prefixAt, commonAt, hne v hv] using hi.mux v hv
      · intro u v i hu hv h; rw [hc] at hu hv; simpa [routerOf, hne u hu, hne v hv] using hi.same u v i hu hv h
  | sub p q =>
    have hne : ∀ v, v < count ops → v ≠ count ops := fun v hv => by omega
    by_cases hp : p < count ops
    · obtain ⟨i, h1, h2, hd⟩ := derefs_lt hi hp
      simp only [step, hd]
      have hc : count (Op.sub p q :: ops) = count ops + 1 := by simp [count, hp]
      have hcond : (q.length = 0 ∨ q = prefixAt ops p) ↔ Idle (prefixAt ops p) q := by simp [Idle]
      by_cases hid : Idle (prefixAt ops p) q
      · rw [if_pos (hcond.2 hid)]
        refine ⟨by simp [hi.nvals, hc], ?_, ?_, hi.routes⟩
        · intro v hv
          by_cases h : v < count ops
          · obtain ⟨j, g1, g2⟩ := hi.mux v h
            refine ⟨j, ?_, ?_⟩
            · simp only; rw [getElem?_snoc, hi.nvals, if_pos h]; exact g1
            · simpa [prefixAt, commonAt, hne v h] using g2
          · have : v = count ops := by omega
            subst this
            refine ⟨i, ?_, ?_⟩
            · simp only; rw [getElem?_snoc, hi.nvals, if_neg h, if_pos rfl]
            · simpa [prefixAt, commonAt, hid] using h2
        · intro u v j hu hv hj
          simp only at hj ⊢
          rw [getElem?_snoc, hi.nvals] at hj ⊢
          have hr : routerOf (Op.sub p q :: ops) (count ops) = routerOf ops p := by simp [routerOf, hid]
          have hro : ∀ v, v < count ops → routerOf (Op.sub p q :: ops) v = routerOf ops v := fun v hv => by simp [routerOf, hne v hv]
          by_cases a1 : u < count ops
          · rw [if_pos a1] at hj
            by_cases a2 : v < count ops
            · rw [if_pos a2, hro u a1, hro v a2]; exact hi.same u v j a1 a2 hj
            · have : v = count ops := by omega
              subst this
              rw [if_neg a2, if_pos rfl, hr, hro u a1]
              have := hi.same u p j a1 hp hj
              rw [h1] at this
              exact this
          · have : u = count ops := by omega
            subst this
            rw [if_neg a1, if_pos rfl] at hj
            cases hj
            by_cases a2 : v < count ops
            · rw [if_pos a2, hr, hro v a2]; exact hi.same p v i hp a2 h1
            · have : v = count ops := by omega
              subst this
              simp
      · rw [if_neg (fun h => hid (hcond.1 h))]
        refine same_new hi _ hc ?_ (by simp [prefixAt, commonAt, hid, resolvePath_eq]) (by simp [routerOf, hid]) rfl
        intro v hv
        simp [prefixAt, commonAt, routerOf, hne v hv]
    · simp only [step, derefs_ge hi hp]
      have hc : count (Op.sub p q :: ops) = count ops := by simp [count, hp]
      refine ⟨by rw [hc]; exact hi.nvals, ?_, ?_, hi.routes⟩
      · intro v hv; rw [hc] at hv; simpa [prefixAt, commonAt, hne v hv] using hi.mux v hv
      · intro u v i hu hv h; rw [hc] at hu hv; simpa [routerOf, hne u hu, hne v hv] using hi.same u v i hu hv h
  | common p ms =>
    by_cases hp : p < count ops
    · obtain ⟨i, h1, h2, hd⟩ := derefs_lt hi hp
      simp only [step, hd]
      refine ⟨hi.nvals, ?_, hi.same, hi.routes⟩
      intro v hv
      have hv : v < count ops := hv
      obtain ⟨j, g1, g2⟩ := hi.mux v hv
      refine ⟨j, g1, ?_⟩
      have hs := hi.same p v i hp hv h1
      rw [g1] at hs
      simp only
      rw [List.getElem?_set]
      by_cases hij : i = j
      · subst hij
        have hr := hs.1 rfl
        rw [if_pos rfl, if_pos (lt_of_getElem? h2)]
        rw [g2] at h2
        simp only [Option.some.injEq, Mux.mk.injEq] at h2
        simp [prefixAt, commonAt, hp, hr, h2.1, h2.2]
      · have hr : ¬ routerOf ops v = routerOf ops p := fun e => hij (by have := hs.2 e.symm; cases this; rfl)
        rw [if_neg hij, g2]
        simp [prefixAt, commonAt, hr]
    · simp only [step, derefs_ge hi hp]
      refine ⟨hi.nvals, ?_, hi.same, hi.routes⟩
      intro v hv
      simpa [prefixAt, commonAt, hp] using hi.mux v hv
  | handle p method path h ms =>
    by_cases hp : p < count ops
    · obtain ⟨i, _, _, hd⟩ := derefs_lt hi hp
      simp only [step, hd]
      exact ⟨hi.nvals, hi.mux, hi.same, by
        simp [routesMade, hi.routes, hp, resolvePath_eq, wrapMiddleware_eq]⟩
    · simp only [step, derefs_ge hi hp]
      exact ⟨hi.nvals, hi.mux, hi.same, by simp [routesMade, hi.routes, hp]⟩
  | debug p d =>
    by_cases hp : p < count ops
    · obtain ⟨i, _, _, hd⟩ := derefs_lt hi hp
      simp only [step, hd]
      exact ⟨hi.nvals, hi.mux, hi.same, by
        simp [routesMade, hi.routes, hp, resolvePath_eq, debugTable, debugNames]⟩
    · simp only [step, derefs_ge hi hp]
      exact ⟨hi.nvals, hi.mux, hi.same, by simp [routesMade, hi.routes, hp]⟩

theorem same_run (ops : List (Op H)) : InvSame (run World.init ops) ops.reverse := by
  suffices h : ∀ rops : List (Op H), InvSame (run World.init rops.reverse) rops by
    simpa using h ops.reverse
  intro rops
  induction rops with
  | nil =>
    refine ⟨rfl, ?_, ?_, rfl⟩
    · intro v hv
      have : v = 0 := by simp [count] at hv; omega
      subst this; exact ⟨0, rfl, rfl⟩
    · intro u v i hu hv h
      have : u = 0 := by simp [count] at hu; omega
      subst this
      have : v = 0 := by simp [count] at hv; omega
      subst this
      simpa [routerOf] using h
  | cons op rops ih =>
    rw [List.reverse_cons]
    unfold run
    rw [List.foldl_append]
    exact same_step ih op

/-- C29, exactly, for every program: each route is wrapped by exactly the common middlewares its
router had when it was registered; `RouteUsingPathPrefix` with an empty prefix, or with the
prefix the router already has, gives the same router again. -/
theorem c29_exact (ops : List (Op H)) :
    (run World.init ops).routes.map (fun r => (r.method, r.handler)) =
      (routesMade ops.reverse).map (fun r => (r.method, r.handler)) := by
  rw [(same_run ops).routes]

/-- C28, as registered: whatever calls came before, registering a handler on a router adds one route, whose handler is the given one inside its own
middlewares inside the common middlewares of that router, each list in its order, nil ones skipped. -/
theorem c28_registered (ops : List (Op H)) (v : Nat) (hv : v < count ops.reverse) (method path : Str) (h : H) (own : List (Option (H → H))) :
    ∃ p, (run World.init (ops ++ [.handle v method path h own])).routes =
      (run World.init ops).routes ++ [⟨method, p, ((commonAt ops.reverse v ++ own).filterMap id).foldr (fun m k => m k) h⟩] := by
  have key : ∀ (k : H) (ms : List (Option (H → H))), wrapAll k ms = (ms.filterMap id).foldr (fun m k => m k) k := by
    intro k ms
    induction ms with
    | nil => rfl
    | cons m ms ih => cases m <;> simp [wrapAll, ih]
  refine ⟨joinPath (prefixAt ops.reverse v) path, ?_⟩
  rw [(same_run _).routes, (same_run _).routes, List.reverse_append]
  simp [routesMade, hv, key, List.foldr_append]

/-- C30, exactly, for every program: each route is at the chain of the prefixes of the routers it
was made through, joined with one slash at each joint, leaving out those that repeat the whole
chain before them. -/
theorem c30_exact (ops : List (Op H)) : (run World.init ops).routes.map (·.path) = (routesMade ops.reverse).map (·.path) := by
  rw [(same_run ops).routes]

/-- Without such calls the description is the one of C29 and C30. -/
theorem made_real : ∀ ops : List (Op H), RealSplits ops → routesMade ops = routesOf ops := by
  have key : ∀ ops : List (Op H), RealSplits ops → (∀ v, v < count ops → prefixAt ops v = prefixOf ops v ∧ commonAt ops v = commonOf ops v ∧ routerOf ops v = v) ∧
      routesMade ops = routesOf ops := by
    intro ops
    induction ops with
    | nil => intro _; exact ⟨fun v _ => ⟨rfl, rfl, rfl⟩, rfl⟩
    | cons op ops ih =>
      intro hr
      obtain ⟨h1, h2⟩ := ih (realSplits_tail hr)
      cases op with
      | clone p =>
        refine ⟨fun v hv => ?_, h2⟩
        by_cases h : v = count ops
        · by_cases hp : p < count ops
          · simp [prefixAt, prefixOf, commonAt, commonOf, routerOf, h, h1 p hp]
          · simp [count, hp] at hv; omega
        · have : v < count ops := by
            simp only [count] at hv; split at hv <;> omega
          simp [prefixAt, prefixOf, commonAt, commonOf, routerOf, h, h1 v this]
      | sub p q =>
        refine ⟨fun v hv => ?_, h2⟩
        by_cases h : v = count ops
        · by_cases hp : p < count ops
          · have hid : ¬ Idle (prefixOf ops p) q := fun e => e.elim hr.1 hr.2.1
            simp [prefixAt, prefixOf, commonAt, commonOf, routerOf, h, h1 p hp, hid]
          · simp [count, hp] at hv; omega
        · have : v < count ops := by
            simp only [count] at hv; split at hv <;> omega
          simp [prefixAt, prefixOf, commonAt, commonOf, routerOf, h, h1 v this]
      | common p ms =>
        refine ⟨fun v hv => ?_, h2⟩
        have hv : v < count ops := hv
        by_cases hp : p < count ops
        · simp [prefixAt, prefixOf, commonAt, commonOf, routerOf, h1 v hv, h1 p hp, hp]
        · have : v ≠ p := by omega
          simp [prefixAt, prefixOf, commonAt, commonOf, routerOf, h1 v hv, hp, this]
      | handle p method path h ms =>
        refine ⟨h1, ?_⟩
        by_cases hp : p < count ops
        · simp [routesMade, routesOf, hp, h1 p hp, h2]
        · simp [routesMade, routesOf, hp, h2]
      | debug p d =>
        refine ⟨h1, ?_⟩
        by_cases hp : p < count ops
        · simp [routesMade, routesOf, hp, h1 p hp, h2]
        · simp [routesMade, routesOf, hp, h2]
  exact fun ops hr => (key ops hr).2

example : (routesMade ([.sub 0 b!"/a", .sub 1 b!"/a", .common 2 [some (· + 1)], .sub 2 b!"/b", .handle 1 b!"GET" b!"/x" 0 [], .handle 3 b!"GET" b!"/y" 5 []] : List (Op Nat)).reverse).map
    (fun r => (r.path, r.handler)) = [(b!"/a/x", 1), (b!"/a/b/y", 6)] := by decide

/-- The common middleware doubles what the own one, which adds three, has made of one. -/
example : (run World.init ([.common 0 [some (2 * ·), none]] ++ [.handle 0 b!"GET" b!"/x" 1 [none, some (· + 3)]] : List (Op Nat))).routes.map (·.handler) = [8] ∧
    0 < count ([.common 0 [some (2 * ·), none]] : List (Op Nat)).reverse := by decide

end Gofre.Props
