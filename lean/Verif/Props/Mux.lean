import Verif.Spec.Mux

/-! # C28–C30: middleware order, scope of common middlewares, path prefixes -/

namespace Gofre.Props
open Gofre.Mux Gofre.Spec
variable {H : Type}

theorem wrapLoop_append (h : H) (a b : List (Option (H → H))) :
    wrapLoop h (a ++ b) = wrapLoop (wrapLoop h a) b := by
  induction a generalizing h with
  | nil => rfl
  | cons x a ih => cases x <;> simp [wrapLoop, ih]

theorem wrapLoop_reverse (h : H) (ms : List (Option (H → H))) :
    wrapLoop h ms.reverse = wrapAll h ms := by
  induction ms with
  | nil => rfl
  | cons m ms ih =>
    rw [List.reverse_cons, wrapLoop_append, ih]
    cases m <;> rfl

theorem wrapMiddleware_eq (h : H) (ms : List (Option (H → H))) :
    wrapMiddleware h ms = wrapAll h ms := by
  unfold wrapMiddleware
  split
  · rename_i hl
    rw [List.eq_nil_of_length_eq_zero hl]; rfl
  · exact wrapLoop_reverse h ms

/-- A middleware that records entering and leaving. -/
def tracer (n : Nat) : (List (Nat ⊕ Nat) → List (Nat ⊕ Nat)) → List (Nat ⊕ Nat) → List (Nat ⊕ Nat) :=
  fun h log => h (log ++ [.inl n]) ++ [.inr n]

/-- C28.  For arbitrary middlewares, the handler that gets registered is the own middlewares
around the handler and the common ones around those, each list outermost first, nil skipped. -/
theorem c28_wrap_order (h : H) (common own : List (Option (H → H))) :
    wrapMiddleware (wrapMiddleware h own) common =
      (common.filterMap id).foldr (fun m k => m k) ((own.filterMap id).foldr (fun m k => m k) h) := by
  have key : ∀ (k : H) (ms : List (Option (H → H))),
      wrapMiddleware k ms = (ms.filterMap id).foldr (fun m k => m k) k := by
    intro k ms
    rw [wrapMiddleware_eq]
    induction ms with
    | nil => rfl
    | cons m ms ih => cases m <;> simp [wrapAll, ih]
  rw [key, key]

/-- C28, as a request sees it: recording middlewares are entered in registration order and
left in the reverse order, whatever the handler does. -/
theorem c28_trace (h : List (Nat ⊕ Nat) → List (Nat ⊕ Nat)) (cs os : List (Option Nat)) (log) :
    wrapMiddleware (wrapMiddleware h (os.map (·.map tracer))) (cs.map (·.map tracer)) log =
      h (log ++ ((cs ++ os).filterMap id).map .inl) ++ (((cs ++ os).filterMap id).reverse).map .inr := by
  have key : ∀ (k : List (Nat ⊕ Nat) → List (Nat ⊕ Nat)) (ms : List (Option Nat)) (log),
      wrapMiddleware k (ms.map (·.map tracer)) log =
        k (log ++ (ms.filterMap id).map .inl) ++ ((ms.filterMap id).reverse).map .inr := by
    intro k ms
    rw [wrapMiddleware_eq]
    induction ms with
    | nil => simp [wrapAll]
    | cons m ms ih => intro log; cases m <;> simp [wrapAll, tracer, ih]
  rw [key, key]
  simp [List.filterMap_append]

example : wrapMiddleware (wrapMiddleware (fun l => l) ([some 3].map (·.map tracer)))
    ([some 1, none, some 2].map (·.map tracer)) [] =
    [.inl 1, .inl 2, .inl 3, .inr 3, .inr 2, .inr 1] := by decide

/-! ### Prefixes -/

theorem resolvePath_eq (a b : Str) : resolvePath a b = joinPath a b := by
  unfold resolvePath joinPath
  rcases List.eq_nil_or_concat a with rfl | ⟨a, x, rfl⟩
  · simp
  cases b with
  | nil => simp
  | cons y b =>
    simp only [List.concat_eq_append, List.getLast?_append, List.getLast?_singleton,
      Option.some_or, List.head?_cons, Option.some.injEq]
    by_cases hx : x = slash <;> by_cases hy : y = slash <;> simp [hx, hy, slash]

theorem getLast?_cons_snoc {α} (y : α) (b : List α) (w : α) : (y :: (b ++ [w])).getLast? = some w :=
  List.getLast?_concat (l := y :: b)

theorem dropLast_cons_snoc {α} (y : α) (b : List α) (w : α) : (y :: (b ++ [w])).dropLast = y :: b :=
  List.dropLast_concat (l₁ := y :: b)

theorem joinPath_assoc (a b c : Str) : joinPath (joinPath a b) c = joinPath a (joinPath b c) := by
  rcases List.eq_nil_or_concat a with rfl | ⟨a, x, rfl⟩
  · simp [joinPath]
  rcases List.eq_nil_or_concat c.reverse with hc | ⟨c', z, hc⟩
  · have : c = [] := by simpa using hc
    subst this
    simp only [joinPath]
    split <;> simp_all
  have hc : c = z :: c'.reverse := by
    have := congrArg List.reverse hc; simpa using this
  subst hc
  generalize c'.reverse = c
  cases b with
  | nil => simp [joinPath]
  | cons y b =>
    rcases List.eq_nil_or_concat b with rfl | ⟨b, w, rfl⟩
    · by_cases hx : x = slash <;> by_cases hy : y = slash <;> by_cases hz : z = slash <;>
        simp [joinPath, hx, hy, hz, List.getLast?_append]
    · by_cases hx : x = slash <;> by_cases hy : y = slash <;> by_cases hz : z = slash <;>
        by_cases hw : w = slash <;>
        simp [joinPath, hx, hy, hz, hw, List.getLast?_append,
          getLast?_cons_snoc, dropLast_cons_snoc]

/-- C30.  The resolved path has exactly one slash at the joint: the prefix without one trailing
slash, a slash, the path without one leading slash (an empty side changes nothing); and
joining is associative, so nesting is. -/
theorem c30_resolve_path (a b c : Str) :
    resolvePath a b = joinPath a b ∧
    resolvePath (resolvePath a b) c = resolvePath a (resolvePath b c) := by
  refine ⟨resolvePath_eq a b, ?_⟩
  simp only [resolvePath_eq, joinPath_assoc]

/-- C30: if the prefix does not end in two slashes and the path does not start with two, the
bytes next to the joining slash are not slashes. -/
theorem c30_one_slash (a b : Str) (ha : a ≠ []) (hb : b ≠ [])
    (ha2 : ∀ r, a ≠ r ++ [slash, slash]) (hb2 : ∀ r, b ≠ slash :: slash :: r) :
    ∃ l r, resolvePath a b = l ++ [slash] ++ r ∧ l.getLast? ≠ some slash ∧ r.head? ≠ some slash ∧
      (a = l ∨ a = l ++ [slash]) ∧ (b = r ∨ b = slash :: r) := by
  rw [resolvePath_eq]
  refine ⟨if a.getLast? = some slash then a.dropLast else a, if b.head? = some slash then b.tail else b,
    by simp only [joinPath, ha, hb, if_false], ?_, ?_, ?_, ?_⟩
  · rcases List.eq_nil_or_concat a with rfl | ⟨a, x, rfl⟩
    · exact absurd rfl ha
    by_cases hx : x = slash
    · subst hx
      simp only [List.concat_eq_append, List.getLast?_append, List.getLast?_singleton, Option.some_or,
        if_true, List.dropLast_concat]
      intro hl
      rcases List.eq_nil_or_concat a with rfl | ⟨a, y, rfl⟩
      · simp at hl
      · simp at hl
        exact ha2 a (by simp [hl])
    · simp [hx]
  · cases b with
    | nil => exact absurd rfl hb
    | cons y b =>
      by_cases hy : y = slash
      · subst hy
        simp only [List.head?_cons, if_true, List.tail_cons]
        intro hl
        cases b with
        | nil => simp at hl
        | cons z b => simp at hl; exact hb2 b (by rw [hl])
      · simp [hy]
  · split
    · rename_i h
      right
      rcases List.eq_nil_or_concat a with rfl | ⟨a, x, rfl⟩
      · exact absurd rfl ha
      · simp at h; simp [h]
    · left; rfl
  · split
    · rename_i h
      right
      cases b with
      | nil => exact absurd rfl hb
      | cons y b => simp at h; simp [h]
    · left; rfl

example : resolvePath b!"/api" b!"v1" = b!"/api/v1" ∧ resolvePath b!"/api/" b!"/v1" = b!"/api/v1" ∧
    resolvePath (resolvePath b!"/api" b!"/v1/") b!"/users" = b!"/api/v1/users" := by decide

/-! ### Programs -/

/-- State of the muxes matches the description. -/
structure Inv (w : World H) (ops : List (Op H)) : Prop where
  nvals : w.vals.length = count ops
  nmux : w.muxes.length = count ops
  val : ∀ v, v < count ops → w.vals[v]? = some v
  mux : ∀ v, v < count ops → w.muxes[v]? = some ⟨prefixOf ops v, commonOf ops v⟩
  routes : w.routes = routesOf ops

theorem deref_lt {w : World H} {ops : List (Op H)} (hi : Inv w ops) {v : Nat} (hv : v < count ops) :
    w.deref v = some (v, ⟨prefixOf ops v, commonOf ops v⟩) := by
  simp [World.deref, hi.val v hv, hi.mux v hv]

theorem deref_ge {w : World H} {ops : List (Op H)} (hi : Inv w ops) {v : Nat} (hv : ¬ v < count ops) :
    w.deref v = none := by
  have : w.vals[v]? = none := by
    apply List.getElem?_eq_none; rw [hi.nvals]; omega
  simp [World.deref, this]

theorem getElem?_snoc {α} (l : List α) (a : α) (v : Nat) :
    (l ++ [a])[v]? = if v < l.length then l[v]? else if v = l.length then some a else none := by
  split
  · rename_i h; exact List.getElem?_append_left h
  · rename_i h
    split
    · rename_i h2; subst h2; simp
    · rename_i h2
      apply List.getElem?_eq_none; simp; omega

theorem inv_step {w : World H} {ops : List (Op H)} (hi : Inv w ops) (op : Op H)
    (hr : RealSplits (op :: ops)) : Inv (step w op) (op :: ops) := by
  cases op with
  | clone p =>
    by_cases hp : p < count ops
    · simp only [step, deref_lt hi hp]
      have hc : count (Op.clone p :: ops) = count ops + 1 := by simp [count, hp]
      refine ⟨by simp [hc, hi.nvals], by simp [hc, hi.nmux], ?_, ?_, ?_⟩
      · intro v hv
        rw [hc] at hv
        rw [getElem?_snoc, hi.nvals, hi.nmux]
        by_cases h : v < count ops
        · simp [h, hi.val v h]
        · have : v = count ops := by omega
          simp [this]
      · intro v hv
        rw [hc] at hv
        rw [getElem?_snoc, hi.nmux]
        by_cases h : v < count ops
        · have hne : v ≠ count ops := by omega
          simp [h, hi.mux v h, prefixOf, commonOf, hne]
        · have : v = count ops := by omega
          simp [this, prefixOf, commonOf]
      · simp [routesOf, hi.routes]
    · simp only [step, deref_ge hi hp]
      have hc : count (Op.clone p :: ops) = count ops := by simp [count, hp]
      refine ⟨by rw [hc]; exact hi.nvals, by rw [hc]; exact hi.nmux, ?_, ?_, ?_⟩
      · intro v hv; rw [hc] at hv; exact hi.val v hv
      · intro v hv; rw [hc] at hv
        have hne : v ≠ count ops := by omega
        simpa [prefixOf, commonOf, hne] using hi.mux v hv
      · simp [routesOf, hi.routes]
  | sub p q =>
    obtain ⟨hq1, hq2, hr⟩ := hr
    by_cases hp : p < count ops
    · simp only [step, deref_lt hi hp]
      have hc : count (Op.sub p q :: ops) = count ops + 1 := by simp [count, hp]
      have hcond : ¬ (q.length = 0 ∨ q = prefixOf ops p) := by
        rintro (h | h)
        · exact hq1 (List.eq_nil_of_length_eq_zero h)
        · exact hq2 h
      rw [if_neg hcond]
      refine ⟨by simp [hc, hi.nvals], by simp [hc, hi.nmux], ?_, ?_, ?_⟩
      · intro v hv
        rw [hc] at hv
        rw [getElem?_snoc, hi.nvals, hi.nmux]
        by_cases h : v < count ops
        · simp [h, hi.val v h]
        · have : v = count ops := by omega
          simp [this]
      · intro v hv
        rw [hc] at hv
        rw [getElem?_snoc, hi.nmux]
        by_cases h : v < count ops
        · have hne : v ≠ count ops := by omega
          simp [h, hi.mux v h, prefixOf, commonOf, hne]
        · have : v = count ops := by omega
          simp [this, prefixOf, commonOf, resolvePath_eq]
      · simp [routesOf, hi.routes]
    · simp only [step, deref_ge hi hp]
      have hc : count (Op.sub p q :: ops) = count ops := by simp [count, hp]
      refine ⟨by rw [hc]; exact hi.nvals, by rw [hc]; exact hi.nmux, ?_, ?_, ?_⟩
      · intro v hv; rw [hc] at hv; exact hi.val v hv
      · intro v hv; rw [hc] at hv
        have hne : v ≠ count ops := by omega
        simpa [prefixOf, commonOf, hne] using hi.mux v hv
      · simp [routesOf, hi.routes]
  | common p ms =>
    by_cases hp : p < count ops
    · simp only [step, deref_lt hi hp]
      refine ⟨hi.nvals, by simp [count, hi.nmux], hi.val, ?_, ?_⟩
      · intro v hv
        have hv : v < count ops := hv
        rw [List.getElem?_set]
        by_cases h : p = v
        · subst h; simp [hi.nmux, hp, prefixOf, commonOf]
        · have : ¬ v = p := fun e => h e.symm
          simp [h, hi.mux v hv, prefixOf, commonOf, this]
      · simp [routesOf, hi.routes]
    · simp only [step, deref_ge hi hp]
      refine ⟨hi.nvals, hi.nmux, hi.val, ?_, ?_⟩
      · intro v hv
        have hv : v < count ops := hv
        have : ¬ v = p := by omega
        simpa [prefixOf, commonOf, this] using hi.mux v hv
      · simp [routesOf, hi.routes]
  | handle p method path h ms =>
    by_cases hp : p < count ops
    · simp only [step, deref_lt hi hp]
      exact ⟨hi.nvals, hi.nmux, hi.val, hi.mux, by
        simp [routesOf, hi.routes, hp, resolvePath_eq, wrapMiddleware_eq]⟩
    · simp only [step, deref_ge hi hp]
      exact ⟨hi.nvals, hi.nmux, hi.val, hi.mux, by simp [routesOf, hi.routes, hp]⟩
  | debug p d =>
    by_cases hp : p < count ops
    · simp only [step, deref_lt hi hp]
      exact ⟨hi.nvals, hi.nmux, hi.val, hi.mux, by
        simp [routesOf, hi.routes, hp, resolvePath_eq, debugTable, debugNames]⟩
    · simp only [step, deref_ge hi hp]
      exact ⟨hi.nvals, hi.nmux, hi.val, hi.mux, by simp [routesOf, hi.routes, hp]⟩

theorem realSplits_tail {op : Op H} {ops : List (Op H)} (h : RealSplits (op :: ops)) : RealSplits ops := by
  cases op <;> first | exact h | exact h.2.2

theorem inv_run (ops : List (Op H)) (hr : RealSplits ops.reverse) : Inv (run World.init ops) ops.reverse := by
  suffices h : ∀ rops : List (Op H), RealSplits rops → Inv (run World.init rops.reverse) rops by
    have := h ops.reverse hr
    simpa using this
  intro rops hr
  induction rops with
  | nil =>
    refine ⟨rfl, rfl, ?_, ?_, rfl⟩
    · intro v hv
      have : v = 0 := by simp [count] at hv; omega
      subst this; rfl
    · intro v hv
      have : v = 0 := by simp [count] at hv; omega
      subst this; rfl
  | cons op rops ih =>
    rw [List.reverse_cons]
    unfold run
    rw [List.foldl_append]
    exact inv_step (ih (realSplits_tail hr)) op hr

/-- C29 and C30 fail when a sub-router is made with an empty prefix: the value returned is the
parent itself, and a middleware added to the "sub-router" wraps a route registered on the
parent. -/
theorem c29_violated :
    ∃ ops : List (Op Nat), (run World.init ops).routes.map (·.handler) ≠ (routesOf ops.reverse).map (·.handler) :=
  ⟨[.sub 0 [], .common 1 [some (· + 1)], .handle 0 b!"GET" b!"/" 0 []], by decide⟩

/-- C29 for every program whose sub-routers are made with a non-empty prefix other than the
parent's own: each route is wrapped by exactly the common middlewares its router had when it
was registered — inherited when it was split off, or added to it before. -/
theorem c29_common_scope_partial (ops : List (Op H)) (hr : RealSplits ops.reverse) :
    (run World.init ops).routes.map (fun r => (r.method, r.handler)) =
      (routesOf ops.reverse).map (fun r => (r.method, r.handler)) := by
  rw [(inv_run ops hr).routes]

/-- C29: registrations are never changed afterwards, whatever the program does later. -/
theorem c29_routes_stable (w : World H) (op : Op H) : ∃ rs, (step w op).routes = w.routes ++ rs := by
  cases op <;> simp only [step]
  · split <;> exact ⟨[], by simp⟩
  · split
    · exact ⟨[], by simp⟩
    · split <;> exact ⟨[], by simp⟩
  · split <;> exact ⟨[], by simp⟩
  · split
    · exact ⟨[], by simp⟩
    · exact ⟨_, rfl⟩
  · split
    · exact ⟨[], by simp⟩
    · exact ⟨_, rfl⟩

/-- C29: in the description, middlewares given to one router do not reach another. -/
theorem c29_isolated_partial (ops : List (Op H)) (v w : Nat) (ms : List (Option (H → H))) (hne : v ≠ w)
    (method path : Str) (h : H) (own : List (Option (H → H)))
    (hr : RealSplits ops.reverse) :
    (run World.init (ops ++ [.common w ms, .handle v method path h own])).routes.map (fun r => (r.method, r.path, r.handler)) =
    (run World.init (ops ++ [.handle v method path h own])).routes.map (fun r => (r.method, r.path, r.handler)) := by
  rw [(inv_run _ (by simpa [RealSplits] using hr)).routes, (inv_run _ (by simpa [RealSplits] using hr)).routes]
  simp only [List.reverse_append, List.reverse_cons, List.reverse_nil, List.nil_append, List.cons_append,
    routesOf, count, prefixOf, commonOf, hne, if_false]

/-- C30 fails for a sub-router whose prefix equals its parent's: the prefix is not added. -/
theorem c30_violated :
    ∃ ops : List (Op Nat), (run World.init ops).routes.map (·.path) = [b!"/a/x"] ∧
      (routesOf ops.reverse).map (·.path) = [b!"/a/a/x"] :=
  ⟨[.sub 0 b!"/a", .sub 1 b!"/a", .handle 2 b!"GET" b!"/x" 0 []], by decide, by decide⟩

/-- C30 for every program without such sub-routers: each route is registered at the chain of
prefixes joined with one slash at each joint. -/
theorem c30_prefixes_partial (ops : List (Op H)) (hr : RealSplits ops.reverse) :
    (run World.init ops).routes.map (·.path) = (routesOf ops.reverse).map (·.path) := by
  rw [(inv_run ops hr).routes]

example : RealSplits ([.common 0 [some (· + 1)], .sub 0 b!"/a", .sub 1 b!"b/", .common 1 [some (· * 2)],
      .handle 2 b!"GET" b!"/x" 5 [none, some (· + 10)]] : List (Op Nat)).reverse ∧
    (run World.init [.common 0 [some (· + 1)], .sub 0 b!"/a", .sub 1 b!"b/", .common 1 [some (· * 2)],
      .handle 2 b!"GET" b!"/x" 5 [none, some (· + 10)]]).routes.map (fun r => (r.path, r.handler)) =
      [(b!"/a/b/x", 16)] := by
  refine ⟨?_, by decide⟩
  simp [RealSplits, prefixOf, joinPath, count]

end Gofre.Props
