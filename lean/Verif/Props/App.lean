import Verif.Model.App
import Verif.Spec.App
import Verif.Props.Guard
import Verif.Props.Stars
import Verif.Props.Complete
import Verif.Props.Shared
import Verif.Props.Hidden
import Verif.Props.Stack

/-! # C126, C127: a whole application -/

namespace Gofre.Props
open Gofre.Http Gofre.Response Gofre.Spec Gofre.Serve Gofre.Path Gofre.MW Gofre.Stack Gofre.App
open Gofre.Mux (World run)
variable {σ : Type} {env : Env} {c : Codec} {quote : Str → Str} {x : Ext} {other : Str → Str} {ci : Bool}

/-- The calls of `Handle` the router sees. -/
def numbered {H : Type} : Nat → List (Mux.Route H) → List Spec.Route
  | _, [] => []
  | i, e :: es => ⟨e.method, e.path, i⟩ :: numbered (i + 1) es

theorem numbered_mem {H : Type} {e : Spec.Route} : ∀ {rts : List (Mux.Route H)} {i : Nat}, e ∈ numbered i rts →
    ∃ k rt, rts[k]? = some rt ∧ e = ⟨rt.method, rt.path, i + k⟩ := by
  intro rts
  induction rts with
  | nil => intro i h; simp [numbered] at h
  | cons rt rts ih =>
    intro i h
    simp only [numbered, List.mem_cons] at h
    rcases h with rfl | h
    · exact ⟨0, rt, rfl, rfl⟩
    · obtain ⟨k, rt', h1, h2⟩ := ih h
      exact ⟨k + 1, rt', by simpa using h1, by rw [h2]; congr 1; omega⟩

theorem load_built {H : Type} : ∀ {rts : List (Mux.Route H)} {r0 r : Router} {i : Nat} {es : List Spec.Route}, Built x other sortSiblings ci es r0 →
    load x other r0 i rts = some r → Built x other sortSiblings ci ((numbered i rts).reverse ++ es) r := by
  intro rts
  induction rts with
  | nil => intro r0 r i es h hl; simp [load] at hl; subst hl; simpa [numbered] using h
  | cons e rts ih =>
    intro r0 r i es h hl
    simp only [load] at hl
    split at hl
    · rename_i r' hh
      have := ih (.returned ⟨e.method, e.path, i⟩ h hh) hl
      simpa [numbered] using this
    · cases hl
    · cases hl

/-- The routes of an application, as its router holds them. -/
theorem load_new {H : Type} {rts : List (Mux.Route H)} {r : Router} (hl : load x other (newRouter ci) 0 rts = some r) :
    Built x other sortSiblings ci (numbered 0 rts).reverse r := by
  simpa using load_built (es := []) .new hl

theorem all2_reverse {α β : Type} {R : α → β → Prop} {l : List α} {m : List β} (h : All2 R l m) : All2 R l.reverse m.reverse := by
  induction h with
  | nil => exact .nil
  | cons h1 _ ih => rw [List.reverse_cons, List.reverse_cons]; exact ih.append (.cons h1 .nil)

theorem numbered_patterns {H : Type} {M : Str} : ∀ {rts : List (Mux.Route H)} {i : Nat} {ps : List Pattern},
    All2 (fun (e : Spec.Route) p => ∃ p0, parsePattern x ci e.pat = .ok p0 ∧ p = { p0 with attachment := e.handler }) (routesFor other (numbered i rts) M) ps →
    ps.map (fun p => (p.segments, p.raw)) = (patternsOf x ci (rts.filter fun rt => toUpper other rt.method = M)).map fun p => (p.segments, p.raw) := by
  intro rts
  induction rts with
  | nil => intro i ps h; cases h; rfl
  | cons rt rts ih =>
    intro i ps h
    simp only [numbered, routesFor, List.filter_cons] at h ⊢
    by_cases hm : toUpper other rt.method = M
    · rw [if_pos (by simpa using hm)] at h ⊢
      cases h with
      | cons h1 h2 =>
        obtain ⟨p0, e1, rfl⟩ := h1
        have := ih h2
        simp only [patternsOf, List.filterMap_cons, e1, List.map_cons] at this ⊢
        rw [this]
    · rw [if_neg (by simpa using hm)] at h ⊢
      exact ih h

/-- What the router of an application holds. -/
theorem load_matchers {H : Type} {rts : List (Mux.Route H)} {r : Router} (hl : load x other (newRouter ci) 0 rts = some r) :
    r.ci = ci ∧ ∀ M, (r.matchers M = none → ∀ rt ∈ rts, toUpper other rt.method ≠ M) ∧
      ∀ m, r.matchers M = some m → ∃ ps, Registered x ci sortSiblings ps m ∧ (ps.length ≤ rts.length ∧ ps.map (fun p => (p.segments, p.raw)) = (patternsOf x ci (rts.filter fun rt => toUpper other rt.method = M)).reverse.map fun p => (p.segments, p.raw)) ∧
        (∀ p ∈ ps, ∃ k rt p0, rts[k]? = some rt ∧ toUpper other rt.method = M ∧ parsePattern x ci rt.path = .ok p0 ∧ p = { p0 with attachment := k }) ∧
        ∀ rt ∈ rts, toUpper other rt.method = M → ∃ p0 k, parsePattern x ci rt.path = .ok p0 ∧ { p0 with attachment := k } ∈ ps := by
  have hr := load_new hl
  obtain ⟨hci, hm⟩ := built_matchers hr
  have mem : ∀ rt ∈ rts, ∃ k, (⟨rt.method, rt.path, k⟩ : Spec.Route) ∈ numbered 0 rts := by
    have gen : ∀ (rts : List (Mux.Route H)) (i : Nat), ∀ rt ∈ rts, ∃ k, (⟨rt.method, rt.path, k⟩ : Spec.Route) ∈ numbered i rts := by
      intro rts
      induction rts with
      | nil => intro _ rt h; cases h
      | cons e rts ih =>
        intro i rt h
        rcases List.mem_cons.1 h with rfl | h
        · exact ⟨i, by simp [numbered]⟩
        · obtain ⟨k, hk⟩ := ih (i + 1) rt h
          exact ⟨k, by simp [numbered, hk]⟩
    exact gen rts 0
  have len : ∀ (rts : List (Mux.Route H)) (i : Nat), (numbered i rts).length = rts.length := by
    intro rts
    induction rts with
    | nil => intro _; rfl
    | cons e rts ih => intro i; simp [numbered, ih]
  refine ⟨hci, fun M => ⟨fun hn rt hrt he => ?_, fun m h => ?_⟩⟩
  · obtain ⟨k, hk⟩ := mem rt hrt
    have h0 := (hm M).1 hn
    have : (⟨rt.method, rt.path, k⟩ : Spec.Route) ∈ routesFor other (numbered 0 rts).reverse M := by simp [routesFor, hk, he]
    rw [h0] at this
    cases this
  · obtain ⟨ps, h2, h3⟩ := (hm M).2 m h
    refine ⟨ps, h2, ⟨?_, ?_⟩, fun p hp => ?_, fun rt hrt he => ?_⟩
    · rw [← h3.length]
      exact Nat.le_trans (List.length_filter_le _ _) (by simp [len])
    · have h4 := all2_reverse h3
      rw [show (routesFor other (numbered 0 rts).reverse M).reverse = routesFor other (numbered 0 rts) M by simp [routesFor]] at h4
      have := congrArg List.reverse (numbered_patterns h4)
      simpa using this
    · obtain ⟨e, he, p0, hp0, hpe⟩ := h3.mem_right hp
      have hee : e ∈ numbered 0 rts ∧ toUpper other e.method = M := by simpa [routesFor] using he
      obtain ⟨k, rt, hk, rfl⟩ := numbered_mem hee.1
      exact ⟨k, rt, p0, hk, hee.2, hp0, by simpa using hpe⟩
    · obtain ⟨k, hk⟩ := mem rt hrt
      obtain ⟨p, hp, p0, h5, h6⟩ := h3.mem_left (a := ⟨rt.method, rt.path, k⟩) (by simp [routesFor, hk, he])
      exact ⟨p0, k, h5, by rw [← h6]; exact hp⟩

theorem mem_patternsOf {H : Type} {rts : List (Mux.Route H)} {rt : Mux.Route H} {p : Pattern} (hrt : rt ∈ rts) (h : parsePattern x ci rt.path = .ok p) :
    p ∈ patternsOf x ci rts := by
  unfold patternsOf
  rw [List.mem_filterMap]
  exact ⟨rt, hrt, by simp [h]⟩

theorem out_shown (q : AReq) : q.out = shown q := by
  unfold AReq.out shown getFirst Map.get?
  cases List.lookup b!"Accept-Encoding" q.req.headers with
  | none => rfl
  | some l => cases l <;> rfl

/-- Running the handler of a route. -/
def ranWith (env : Env) (rt : Mux.Route (AHandler σ)) (q : AReq) (vars : Str → Option Str) (s : σ) : WRes c × σ :=
  (deliver env (shown q) (rt.handler vars {} q.req s).1, (rt.handler vars {} q.req s).2)

/-- What an application does with a request: it depends on what the router finds. -/
theorem app_cases {rts : List (Mux.Route (AHandler σ))} {r : Router} (hload : load x other (newRouter ci) 0 rts = some r)
    (q : AReq) {buf : List USeg} (hb : buf.length = 19) (s : σ) :
    ∃ f res, (∀ g, f ≤ g → serveApp (c := c) x other env r (rts.map (·.handler)) q buf g s = some res) ∧
      ((res = (bare 404, s) ∧ ∀ rt ∈ rts, toUpper other rt.method ≠ toUpper other q.req.method) ∨
        ∃ m ps ans, Registered x ci sortSiblings ps m ∧ (ps.length ≤ rts.length ∧ ps.map (fun p => (p.segments, p.raw)) = (patternsOf x ci (rts.filter fun rt => toUpper other rt.method = toUpper other q.req.method)).reverse.map fun p => (p.segments, p.raw)) ∧
          (∀ p ∈ ps, ∃ rt ∈ rts, ∃ p0 k, parsePattern x ci rt.path = .ok p0 ∧ p = { p0 with attachment := k }) ∧
          (∀ rt ∈ rts, toUpper other rt.method = toUpper other q.req.method → ∃ p0 k, parsePattern x ci rt.path = .ok p0 ∧ { p0 with attachment := k } ∈ ps) ∧
          (∀ g, f ≤ g → lookup x ci m q.path buf g = some ans) ∧
          ((ans = .panic ∧ res = (.panic {}, s)) ∨ (ans = .none ∧ res = (bare 404, s)) ∨
            ∃ p labels, ans = .found p labels ∧ ∃ rt ∈ rts, toUpper other rt.method = toUpper other q.req.method ∧
              ∃ p0 k segs, parsePattern x ci rt.path = .ok p0 ∧ p = { p0 with attachment := k } ∧ parseURLPath q.path buf = some segs ∧
                res = ranWith env rt q (pathVarText q.path p labels segs) s)) := by
  obtain ⟨hci, hm⟩ := load_matchers hload
  obtain ⟨segs, h1, _⟩ := c11_in_bounds q.path buf hb
  cases h : r.matchers (toUpper other q.req.method) with
  | none => exact ⟨0, (bare 404, s), fun g _ => by simp [serveApp, h1, h], .inl ⟨rfl, (hm _).1 h⟩⟩
  | some m =>
    obtain ⟨ps, h2, hlen', hps, hback⟩ := (hm _).2 m h
    have hps' : ∀ p ∈ ps, ∃ rt ∈ rts, ∃ p0 k, parsePattern x ci rt.path = .ok p0 ∧ p = { p0 with attachment := k } := by
      intro p hp
      obtain ⟨k, rt, p0, a, _, b, d⟩ := hps p hp
      exact ⟨rt, List.mem_of_getElem? a, p0, k, b, d⟩
    obtain ⟨segs', h1', f, h4⟩ := lookup_any x ci m q.path buf hb
    cases h1.symm.trans h1'
    have h5 : ∀ g, f ≤ g → matchM (matchUrl x ci q.path) m segs g = some (answer (matchUrl x ci q.path) m segs) := by
      intro g hg
      have := h4 g hg
      simpa [lookup, h1] using this
    cases ha : answer (matchUrl x ci q.path) m segs with
    | panic =>
      exact ⟨f, (.panic {}, s), fun g hg => by simp [serveApp, h1, h, hci, h5 g hg, ha],
        .inr ⟨m, ps, .panic, h2, hlen', hps', hback, fun g hg => by rw [h4 g hg, ha], .inl ⟨rfl, rfl⟩⟩⟩
    | none =>
      exact ⟨f, (bare 404, s), fun g hg => by simp [serveApp, h1, h, hci, h5 g hg, ha],
        .inr ⟨m, ps, .none, h2, hlen', hps', hback, fun g hg => by rw [h4 g hg, ha], .inr (.inl ⟨rfl, rfl⟩)⟩⟩
    | found p labels =>
      have hp : p ∈ ps := by
        have hh := holds sortSiblings_perm h2
        by_cases hroot : m.root = some p
        · exact (hh.root p hroot).1
        · have h' : (tryC (matchUrl x ci q.path) 0 m.kids (m.kids.length % 65536) segs).toM = .found p labels :=
            (answer_cases ha).resolve_left hroot
          cases ht : tryC (matchUrl x ci q.path) 0 m.kids (m.kids.length % 65536) segs with
          | found q l' =>
            rw [ht] at h'
            simp only [Res.toM, MRes.found.injEq] at h'
            obtain ⟨rfl, rfl⟩ := h'
            obtain ⟨l, bs, h1, _, _⟩ := tryC_sound (fun _ _ _ => matchUrl_kind) matchUrl_star _ m.kids (Nat.le_refl _) _ _ _ _ _ ht
            exact (hh.leaf l q h1).1
          | next => rw [ht] at h'; cases h'
          | stop => rw [ht] at h'; cases h'
          | abort => rw [ht] at h'; cases h'
          | panic => rw [ht] at h'; cases h'
      obtain ⟨k, rt, p0, hk, hmeth, hp0, hpe⟩ := hps p hp
      refine ⟨f, ranWith env rt q (pathVarText q.path p labels segs) s, fun g hg => ?_,
        .inr ⟨m, ps, .found p labels, h2, hlen', hps', hback, fun g hg => by rw [h4 g hg, ha],
          .inr (.inr ⟨p, labels, rfl, rt, List.mem_of_getElem? hk, hmeth, p0, k, segs, hp0, hpe, h1, rfl⟩)⟩⟩
      have hatt : p.attachment = k := by rw [hpe]
      simp [serveApp, h1, h, hci, h5 g hg, ha, hatt, hk, ranWith, out_shown]

/-- C126 (soundness): whatever a program registers, on whatever routers, a request is answered by
404 with nothing having run (or crashes in matching), or by one route whose method is that of the
request and whose resolved pattern describes its path; then exactly the chain of that route runs:
the common middlewares its router had at that moment, its own ones and the handler, with the
variables of the pattern, once. -/
theorem c126_runs_partial (hl : FoldLaws x.eqFold) (ops : List (Mux.Op (AHandler σ)))
    {r : Router} (hload : load x other (newRouter ci) 0 (run World.init ops).routes = some r)
    (hplain : ∀ p ∈ patternsOf x ci (routesMade ops.reverse), (∀ seg ∈ p.segments, Plain ci seg) ∧ (pieces p.raw).length < 256)
    (q : AReq) (hm : Ascii q.req.method) (hms : ∀ rt ∈ routesMade ops.reverse, Ascii rt.method)
    {buf : List USeg} (hb : buf.length = 19) (hlen : q.path.length ≤ 65535) (hf : Fits q.path) (s : σ) :
    ∃ f res, (∀ g, f ≤ g → serveApp (c := c) x other env r ((run World.init ops).routes.map (·.handler)) q buf g s = some res) ∧
      (res = (.panic {}, s) ∨ res = (bare 404, s) ∨
        ∃ rt ∈ routesMade ops.reverse, ∃ vars, Serves x ci rt q.req.method q.path vars ∧
          res = (deliver env (shown q) (rt.handler (fun n => some (vars n)) {} q.req s).1, (rt.handler (fun n => some (vars n)) {} q.req s).2)) := by
  have hroutes := (same_run ops).routes
  rw [hroutes] at hload ⊢
  obtain ⟨f, res, h1, h2⟩ := app_cases (c := c) (env := env) hload q hb s
  refine ⟨f, res, h1, ?_⟩
  rcases h2 with ⟨h2, _⟩ | ⟨m, ps, ans, hreg, _, hps, _, hans, h2⟩
  · exact .inr (.inl h2)
  have hpl : ∀ p ∈ ps, ∀ seg ∈ p.segments, Plain ci seg := by
    intro p hp
    obtain ⟨rt, hrt, p0, k, ha, rfl⟩ := hps p hp
    exact (hplain p0 (mem_patternsOf hrt ha)).1
  rcases h2 with ⟨_, h2⟩ | ⟨_, h2⟩ | ⟨p, labels, rfl, rt, hrt, hmeth, p0, k, segs, hp0, hpe, hsegs, h2⟩
  · exact .inl h2
  · exact .inr (.inl h2)
  · right; right
    obtain ⟨segs', bs, e1, e2, e3⟩ := c15_variables_partial hl hreg hpl hb hlen hf (hans f (Nat.le_refl _))
      (by rw [hpe]; exact (hplain p0 (mem_patternsOf hrt hp0)).2)
    rw [hsegs] at e1
    cases e1
    have hseg : p.segments = p0.segments := by rw [hpe]
    rw [hseg] at e2 e3
    refine ⟨rt, hrt, fun n => (valueIn n p0.segments bs).getD [], ⟨(toUpper_eq_iff (hms rt hrt) hm).1 hmeth, p0, bs, hp0, e2, fun _ => rfl⟩, ?_⟩
    rw [h2, ranWith, funext e3]

/-- C126 with any patterns whatsoever: whatever runs is the chain of a route for the method, and if the pattern of this route is one for which no others
stand, the route is for the request and the chain gets the variables of the pattern. -/
theorem c126_own_partial (hl : FoldLaws x.eqFold) (ops : List (Mux.Op (AHandler σ)))
    {r : Router} (hload : load x other (newRouter ci) 0 (run World.init ops).routes = some r)
    (q : AReq) (hm : Ascii q.req.method) (hms : ∀ rt ∈ routesMade ops.reverse, Ascii rt.method)
    {buf : List USeg} (hb : buf.length = 19) (hlen : q.path.length ≤ 65535) (hf : Fits q.path) (s : σ) :
    ∃ f res, (∀ g, f ≤ g → serveApp (c := c) x other env r ((run World.init ops).routes.map (·.handler)) q buf g s = some res) ∧
      (res = (.panic {}, s) ∨ res = (bare 404, s) ∨
        ∃ rt ∈ routesMade ops.reverse, ∃ vars, SameMethod rt.method q.req.method ∧
          res = (deliver env (shown q) (rt.handler vars {} q.req s).1, (rt.handler vars {} q.req s).2) ∧
          ∃ p, parsePattern x ci rt.path = .ok p ∧ (OwnSegments ci p.segments → (pieces p.raw).length < 256 →
            ∃ values, vars = (fun n => some (values n)) ∧ Serves x ci rt q.req.method q.path values)) := by
  have hroutes := (same_run ops).routes
  rw [hroutes] at hload ⊢
  obtain ⟨f, res, h1, h2⟩ := app_cases (c := c) (env := env) hload q hb s
  refine ⟨f, res, h1, ?_⟩
  rcases h2 with ⟨h2, _⟩ | ⟨m, ps, ans, hreg, _, hps, _, hans, h2⟩
  · exact .inr (.inl h2)
  rcases h2 with ⟨_, h2⟩ | ⟨_, h2⟩ | ⟨p, labels, rfl, rt, hrt, hmeth, p0, k, segs, hp0, hpe, hsegs, h2⟩
  · exact .inl h2
  · exact .inr (.inl h2)
  · refine .inr (.inr ⟨rt, hrt, _, (toUpper_eq_iff (hms rt hrt) hm).1 hmeth, h2, p0, hp0, fun hown hpieces => ?_⟩)
    obtain ⟨segs', bs, e1, e2, e3⟩ := c15_own_partial hl hreg hb hlen hf (hans f (Nat.le_refl _)) (by rw [hpe]; exact hown) (by rw [hpe]; exact hpieces)
    rw [hsegs] at e1
    cases e1
    have hseg : p.segments = p0.segments := by rw [hpe]
    rw [hseg] at e2 e3
    exact ⟨fun n => (valueIn n p0.segments bs).getD [], funext e3, (toUpper_eq_iff (hms rt hrt) hm).1 hmeth, p0, bs, hp0, e2, fun _ => rfl⟩

/-- C126 (completeness) for applications whose `**` stand last, for requests that no proper beginning
of a pattern describes and whose wildcards are compared exactly: when some route is for the request,
one such route answers it, and otherwise the answer is 404. -/
theorem c126_served_partial (hl : FoldLaws x.eqFold) (ops : List (Mux.Op (AHandler σ)))
    {r : Router} (hload : load x other (newRouter ci) 0 (run World.init ops).routes = some r)
    (hplain : ∀ p ∈ patternsOf x ci (routesMade ops.reverse), (∀ seg ∈ p.segments, Plain ci seg) ∧ (pieces p.raw).length < 256 ∧ StarsLast p.segments ∧
      (p.segments.length ≤ 18 ∨ ∀ s ∈ p.segments, s.kind ≠ .multiple))
    (hfew : (routesMade ops.reverse).length < 65536)
    (q : AReq) (hm : Ascii q.req.method) (hms : ∀ rt ∈ routesMade ops.reverse, Ascii rt.method)
    {buf : List USeg} (hb : buf.length = 19) (hlen : q.path.length ≤ 65535) (hf : Fits q.path)
    (hfaith : Faithful ci (patternsOf x ci (routesMade ops.reverse)) (segmentsOf q.path))
    (hpre : ∀ p ∈ patternsOf x ci (routesMade ops.reverse), ∀ k, 0 < k → k < p.segments.length → ¬ Describes x ci (p.segments.take k) (segmentsOf q.path))
    (s : σ) :
    ∃ f res, (∀ g, f ≤ g → serveApp (c := c) x other env r ((run World.init ops).routes.map (·.handler)) q buf g s = some res) ∧
      (((¬ ∃ rt ∈ routesMade ops.reverse, ∃ vars, Serves x ci rt q.req.method q.path vars) ∧ res = (bare 404, s)) ∨
        ∃ rt ∈ routesMade ops.reverse, ∃ vars, Serves x ci rt q.req.method q.path vars ∧
          res = (deliver env (shown q) (rt.handler (fun n => some (vars n)) {} q.req s).1, (rt.handler (fun n => some (vars n)) {} q.req s).2)) := by
  have hroutes := (same_run ops).routes
  rw [hroutes] at hload ⊢
  obtain ⟨f, res, h1, h2⟩ := app_cases (c := c) (env := env) hload q hb s
  refine ⟨f, res, h1, ?_⟩
  rcases h2 with ⟨h2, hno⟩ | ⟨m, ps, ans, hreg, hcount, hps, hback, hans, h2⟩
  · exact .inl ⟨fun ⟨rt, hrt, vars, hs⟩ => hno rt hrt ((toUpper_eq_iff (hms rt hrt) hm).2 hs.same), h2⟩
  have hpl : ∀ p ∈ ps, ∃ p0 ∈ patternsOf x ci (routesMade ops.reverse), p.segments = p0.segments ∧ p.raw = p0.raw := by
    intro p hp
    obtain ⟨rt, hrt, p0, k, ha, rfl⟩ := hps p hp
    exact ⟨p0, mem_patternsOf hrt ha, rfl, rfl⟩
  have hpl1 : ∀ p ∈ ps, ∀ seg ∈ p.segments, Plain ci seg := by
    intro p hp; obtain ⟨p0, h0, e, _⟩ := hpl p hp; rw [e]; exact (hplain p0 h0).1
  have hpl2 : ∀ p ∈ ps, (pieces p.raw).length < 256 := by
    intro p hp; obtain ⟨p0, h0, _, e⟩ := hpl p hp; rw [e]; exact (hplain p0 h0).2.1
  have hpl3 : ∀ p ∈ ps, StarsLast p.segments := by
    intro p hp; obtain ⟨p0, h0, e, _⟩ := hpl p hp; rw [e]; exact (hplain p0 h0).2.2.1
  have hpl4 : ∀ p ∈ ps, p.segments.length ≤ 18 ∨ ∀ s ∈ p.segments, s.kind ≠ .multiple := by
    intro p hp; obtain ⟨p0, h0, e, _⟩ := hpl p hp; rw [e]; exact (hplain p0 h0).2.2.2
  have hfa : Faithful ci ps (segmentsOf q.path) := by
    refine ⟨?_, ?_, hfaith.request⟩
    · intro p hp; obtain ⟨p0, h0, e, _⟩ := hpl p hp; rw [e]; exact hfaith.wild p0 h0
    · intro hc p hp; obtain ⟨p0, h0, e, _⟩ := hpl p hp; rw [e]; exact hfaith.pats hc p0 h0
  have hpre' : ∀ p ∈ ps, ∀ k, 0 < k → k < p.segments.length → ¬ Describes x ci (p.segments.take k) (segmentsOf q.path) := by
    intro p hp; obtain ⟨p0, h0, e, _⟩ := hpl p hp; rw [e]; exact hpre p0 h0
  rcases h2 with ⟨rfl, _⟩ | ⟨rfl, h2⟩ | ⟨p, labels, rfl, rt, hrt, hmeth, p0, k, segs, hp0, hpe, hsegs, h2⟩
  · exact absurd (hans f (Nat.le_refl _)) (c17_no_crash_partial hreg (fun p hp => (hpl4 p hp).imp id .inl) hb hlen (fun p hp s hs hk u hu => (hfa.wild p hp s hs hk u hu).1) f)
  · refine .inl ⟨?_, h2⟩
    rintro ⟨rt, hrt, vars, hs⟩
    obtain ⟨p0, bs, e1, e2, _⟩ := hs.described
    obtain ⟨p0', k, e3, e4⟩ := hback rt hrt ((toUpper_eq_iff (hms rt hrt) hm).2 hs.same)
    rw [e1] at e3
    cases e3
    obtain ⟨f', q', labels, _, h6⟩ := c18_served_partial hl hreg hpl1 (by have := hcount.1; omega) hpl2 hpl3 hb hlen hf hfa hpre' e4 ⟨bs, e2⟩
    have h7 := h6 (max f f') (by omega)
    rw [hans _ (by omega)] at h7
    cases h7
  · right
    obtain ⟨segs', bs, e1, e2, e3⟩ := c15_variables_partial hl hreg hpl1 hb hlen hf (hans f (Nat.le_refl _))
      (by rw [hpe]; exact (hplain p0 (mem_patternsOf hrt hp0)).2.1)
    rw [hsegs] at e1
    cases e1
    have hseg : p.segments = p0.segments := by rw [hpe]
    rw [hseg] at e2 e3
    refine ⟨rt, hrt, fun n => (valueIn n p0.segments bs).getD [], ⟨(toUpper_eq_iff (hms rt hrt) hm).1 hmeth, p0, bs, hp0, e2, fun _ => rfl⟩, ?_⟩
    rw [h2, ranWith, funext e3]

theorem hidden_of_segments {ps ps' : List Pattern} (h : ∀ ss, (∃ p ∈ ps, p.segments = ss) → ∃ p ∈ ps', p.segments = ss)
    (h' : ∀ ss, (∃ p ∈ ps', p.segments = ss) → ∃ p ∈ ps, p.segments = ss) {us : List Str} {ss : List Segment} (hh : Hidden x ci ps us ss) :
    Hidden x ci ps' us ss := by
  obtain ⟨q, hq, k, h1, h2, h3, h4, h5⟩ := hh
  obtain ⟨q', hq', e⟩ := h _ ⟨q, hq, rfl⟩
  rw [← e] at h2 h3 h4 h5
  refine ⟨q', hq', k, h1, h2, h3, fun p hp hd => ?_, h5⟩
  obtain ⟨p', hp', e'⟩ := h' _ ⟨p, hp, rfl⟩
  rw [← e'] at hd ⊢
  exact h4 p' hp' hd

/-- C126, exactly, for applications whose `**` stand last, when wildcards are compared exactly and neither wildcards nor constrained variables of the
routes for the method compete for a segment of the request: a route that is for the request and is not hidden by the beginning of another one runs,
the most specific such route; if there is none, the answer is 404 and nothing runs. -/
theorem c126_exact_partial (hl : FoldLaws x.eqFold) (ops : List (Mux.Op (AHandler σ)))
    {r : Router} (hload : load x other (newRouter ci) 0 (run World.init ops).routes = some r)
    (q : AReq) (hm : Ascii q.req.method) (hms : ∀ rt ∈ routesMade ops.reverse, Ascii rt.method)
    {pats : List Pattern} (hpats : pats = patternsOf x ci (routesOn q.req.method (routesMade ops.reverse)))
    (hplain : ∀ p ∈ pats, (∀ seg ∈ p.segments, Plain ci seg) ∧ (pieces p.raw).length ≤ 19 ∧ StarsLast p.segments)
    (hfew : (routesMade ops.reverse).length < 65536)
    {buf : List USeg} (hb : buf.length = 19) (hlen : q.path.length ≤ 65535) (hf : Fits q.path)
    (hfaith : Faithful ci pats (segmentsOf q.path)) (hset : Settled x ci pats (segmentsOf q.path)) (hcon : Unrivalled x ci pats (segmentsOf q.path))
    (s : σ) :
    ∃ f res, (∀ g, f ≤ g → serveApp (c := c) x other env r ((run World.init ops).routes.map (·.handler)) q buf g s = some res) ∧
      ((res = (bare 404, s) ∧ ∀ rt ∈ routesMade ops.reverse, ∀ vars p, Serves x ci rt q.req.method q.path vars → parsePattern x ci rt.path = .ok p →
          Hidden x ci pats (segmentsOf q.path) p.segments) ∨
        ∃ rt ∈ routesMade ops.reverse, ∃ vars p, Serves x ci rt q.req.method q.path vars ∧ parsePattern x ci rt.path = .ok p ∧
          ¬ Hidden x ci pats (segmentsOf q.path) p.segments ∧
          (∀ rt' ∈ routesMade ops.reverse, ∀ vars' p', Serves x ci rt' q.req.method q.path vars' → parsePattern x ci rt'.path = .ok p' →
            ¬ Hidden x ci pats (segmentsOf q.path) p'.segments → MoreSpecific (kinds p.segments) (kinds p'.segments)) ∧
          res = (deliver env (shown q) (rt.handler (fun n => some (vars n)) {} q.req s).1, (rt.handler (fun n => some (vars n)) {} q.req s).2)) := by
  have hroutes := (same_run ops).routes
  rw [hroutes] at hload ⊢
  obtain ⟨f, res, h1, h2⟩ := app_cases (c := c) (env := env) hload q hb s
  refine ⟨f, res, h1, ?_⟩
  rcases h2 with ⟨h2, hno⟩ | ⟨m, ps, ans, hreg, ⟨hcount, hmap⟩, hps, hback, hans, h2⟩
  · exact .inl ⟨h2, fun rt hrt vars p hs => absurd ((toUpper_eq_iff (hms rt hrt) hm).2 hs.same) (hno rt hrt)⟩
  have hon : (routesMade ops.reverse).filter (fun rt => toUpper other rt.method = toUpper other q.req.method) = routesOn q.req.method (routesMade ops.reverse) := by
    unfold routesOn
    refine List.filter_congr fun rt hrt => ?_
    simpa using toUpper_eq_iff (hms rt hrt) hm
  rw [hon, ← hpats] at hmap
  have hpl : ∀ p ∈ ps, ∃ p0 ∈ pats, p0.segments = p.segments ∧ p0.raw = p.raw := by
    intro p hp
    have : (p.segments, p.raw) ∈ ps.map fun p => (p.segments, p.raw) := List.mem_map.2 ⟨p, hp, rfl⟩
    rw [hmap] at this
    obtain ⟨p0, h0, e⟩ := List.mem_map.1 this
    exact ⟨p0, by simpa using h0, congrArg Prod.fst e, congrArg Prod.snd e⟩
  have hlp : ∀ p0 ∈ pats, ∃ p ∈ ps, p.segments = p0.segments := by
    intro p hp
    have : (p.segments, p.raw) ∈ pats.reverse.map fun p => (p.segments, p.raw) := List.mem_map.2 ⟨p, by simpa using hp, rfl⟩
    rw [← hmap] at this
    obtain ⟨p0, h0, e⟩ := List.mem_map.1 this
    exact ⟨p0, h0, congrArg Prod.fst e⟩
  have hhid : ∀ ss, Hidden x ci ps (segmentsOf q.path) ss ↔ Hidden x ci pats (segmentsOf q.path) ss := by
    intro ss
    have a : ∀ ss, (∃ p ∈ ps, p.segments = ss) → ∃ p ∈ pats, p.segments = ss := by
      rintro _ ⟨p, hp, rfl⟩; obtain ⟨p0, h0, e, _⟩ := hpl p hp; exact ⟨p0, h0, e⟩
    have b : ∀ ss, (∃ p ∈ pats, p.segments = ss) → ∃ p ∈ ps, p.segments = ss := by
      rintro _ ⟨p, hp, rfl⟩; exact hlp p hp
    exact ⟨hidden_of_segments a b, hidden_of_segments b a⟩
  have hpl1 : ∀ p ∈ ps, ∀ seg ∈ p.segments, Plain ci seg := by
    intro p hp; obtain ⟨p0, h0, e, _⟩ := hpl p hp; rw [← e]; exact (hplain p0 h0).1
  have hpl2 : ∀ p ∈ ps, (pieces p.raw).length ≤ 19 := by
    intro p hp; obtain ⟨p0, h0, _, e⟩ := hpl p hp; rw [← e]; exact (hplain p0 h0).2.1
  have hpl3 : ∀ p ∈ ps, StarsLast p.segments := by
    intro p hp; obtain ⟨p0, h0, e, _⟩ := hpl p hp; rw [← e]; exact (hplain p0 h0).2.2
  have hfa : Faithful ci ps (segmentsOf q.path) := by
    refine ⟨?_, ?_, hfaith.request⟩
    · intro p hp; obtain ⟨p0, h0, e, _⟩ := hpl p hp; rw [← e]; exact hfaith.wild p0 h0
    · intro hc p hp; obtain ⟨p0, h0, e, _⟩ := hpl p hp; rw [← e]; exact hfaith.pats hc p0 h0
  have hse : Settled x ci ps (segmentsOf q.path) := by
    intro p hp p' hp'
    obtain ⟨p0, h0, e, _⟩ := hpl p hp
    obtain ⟨p0', h0', e', _⟩ := hpl p' hp'
    rw [← e, ← e']
    exact hset p0 h0 p0' h0'
  have hun : Unrivalled x ci ps (segmentsOf q.path) := by
    have e : ∀ l : List Pattern, Unrivalled x ci l (segmentsOf q.path) ↔ (l.map fun p => (p.segments, p.raw)).Pairwise fun a b =>
        ∀ s ∈ a.1, ∀ t ∈ b.1, s.kind = .constraint → t.kind = .constraint → ∀ u ∈ segmentsOf q.path, ¬ (Fit x ci s u ∧ Fit x ci t u) := by
      intro l; rw [List.pairwise_map]; rfl
    rw [e, hmap, ← e]
    exact ((List.reverse_perm pats).pairwise_iff rival_symm).2 hcon
  obtain ⟨f', hfu⟩ := c18_exact_partial hl hreg hpl1 (by omega) hpl2 hpl3 hb hlen hf hfa hse hun
  have hserve : ∀ rt ∈ routesMade ops.reverse, ∀ vars p, Serves x ci rt q.req.method q.path vars → parsePattern x ci rt.path = .ok p →
      ∃ p' ∈ ps, p'.segments = p.segments ∧ Describes x ci p.segments (segmentsOf q.path) := by
    intro rt hrt vars p hs hp
    obtain ⟨p0, bs, e1, e2, _⟩ := hs.described
    rw [hp] at e1
    cases e1
    obtain ⟨p0', k, e3, e4⟩ := hback rt hrt ((toUpper_eq_iff (hms rt hrt) hm).2 hs.same)
    rw [hp] at e3
    cases e3
    exact ⟨_, e4, rfl, bs, e2⟩
  rcases h2 with ⟨rfl, _⟩ | ⟨rfl, h2⟩ | ⟨p, labels, rfl, rt, hrt, hmeth, p0, k, segs, hp0, hpe, hsegs, h2⟩
  · have hr := lookup_result hb hlen (hans f (Nat.le_refl _))
    rw [requestOf_fits hf] at hr
    by_cases hne : segmentsOf q.path = []
    · rw [hne] at hr
      unfold answer at hr
      split at hr
      · cases hr
      · rw [tryC_nil] at hr; cases hr
    · rcases answer_exact hl sortSiblings_perm sortSiblings_sorted hreg hpl1 (by omega) hpl3 hpl2 hse hun (hf _ (List.prefix_refl _)) hfa hne with
        ⟨p, ls, e, _⟩ | ⟨e, _⟩ <;> rw [e] at hr <;> cases hr
  · refine .inl ⟨h2, fun rt hrt vars p hs hp => ?_⟩
    obtain ⟨p', hp', e, hd⟩ := hserve rt hrt vars p hs hp
    rw [← hhid, ← e]
    exact (hfu (max f f') (by omega)).2.1 (hans _ (by omega)) p' hp' (e ▸ hd)
  · right
    obtain ⟨segs', bs, e1, e2, e3⟩ := c15_variables_partial hl hreg hpl1 hb hlen hf (hans f (Nat.le_refl _))
      (by have := hpl2 p (c19_exact_partial hl hreg hpl1 (by omega) hpl2 hpl3 hb hlen hf hfa hse hun (hans f (Nat.le_refl _))).1; omega)
    obtain ⟨g1, g2, g3, g4⟩ := c19_exact_partial hl hreg hpl1 (by omega) hpl2 hpl3 hb hlen hf hfa hse hun (hans f (Nat.le_refl _))
    rw [hsegs] at e1
    cases e1
    have hseg : p.segments = p0.segments := by rw [hpe]
    rw [hseg] at e2 e3
    refine ⟨rt, hrt, fun n => (valueIn n p0.segments bs).getD [], p0, ⟨(toUpper_eq_iff (hms rt hrt) hm).1 hmeth, p0, bs, hp0, e2, fun _ => rfl⟩, hp0,
      by rw [← hhid, ← hseg]; exact g3, ?_, by rw [h2, ranWith, funext e3]⟩
    intro rt' hrt' vars' p' hs' hp' hnh
    obtain ⟨p'', hp'', e, hd⟩ := hserve rt' hrt' vars' p' hs' hp'
    rw [← hseg, ← e]
    exact g4 p'' hp'' (e ▸ hd) (by rw [hhid, e]; exact hnh)

/-- The registration function of a method. -/
def registration {H : Type} : Verb → Nat → Str → H → List (Option (H → H)) → Mux.Op H
  | .get => Mux.handleGet
  | .post => Mux.handlePost
  | .put => Mux.handlePut
  | .patch => Mux.handlePatch
  | .delete => Mux.handleDelete

/-- C126 for the five registration functions: an application with one route answers exactly the requests
with that method (in any case) which the pattern describes, wherever its `**` are, by running the chain of the
route; all others are answered 404. -/
theorem c126_verb_partial (hl : FoldLaws x.eqFold) (v : Verb) (pat : Str) (h : AHandler σ) (ms : List (Option (AHandler σ → AHandler σ)))
    {r : Router} (hload : load x other (newRouter ci) 0 (run World.init [registration v 0 pat h ms]).routes = some r)
    {p : Pattern} (hp : parsePattern x ci pat = .ok p) (hplain : ∀ seg ∈ p.segments, Plain ci seg)
    (hlong : (pieces pat).length < 256) (hdeep : p.segments.length ≤ 18 ∨ ∀ s ∈ p.segments, s.kind ≠ .multiple)
    (q : AReq) (hm : Ascii q.req.method) {buf : List USeg} (hb : buf.length = 19) (hlen : q.path.length ≤ 65535) (hf : Fits q.path)
    (hfaith : Faithful ci [p] (segmentsOf q.path)) (s : σ) :
    ∃ f res, (∀ g, f ≤ g → serveApp (c := c) x other env r ((run World.init [registration v 0 pat h ms]).routes.map (·.handler)) q buf g s = some res) ∧
      ((¬ (SameMethod v.name q.req.method ∧ Describes x ci p.segments (segmentsOf q.path)) ∧ res = (bare 404, s)) ∨
        (SameMethod v.name q.req.method ∧ ∃ bs, Layout x ci p.segments (segmentsOf q.path) bs ∧
          res = (deliver env (shown q) (wrapAll h ms (fun n => some ((valueIn n p.segments bs).getD [])) {} q.req s).1,
            (wrapAll h ms (fun n => some ((valueIn n p.segments bs).getD [])) {} q.req s).2))) := by
  have hroutes : (run World.init [registration v 0 pat h ms]).routes = [⟨v.name, pat, wrapAll h ms⟩] := by
    cases v <;>
      simp [registration, Mux.handleGet, Mux.handlePost, Mux.handlePut, Mux.handlePatch, Mux.handleDelete, run, Mux.step, World.init, World.deref, Mux.resolvePath,
        wrapMiddleware_eq, wrapAll, Verb.name]
  have hv : Ascii v.name := by cases v <;> simp only [Ascii, Verb.name] <;> decide
  rw [hroutes] at hload ⊢
  obtain ⟨f, res, h1, h2⟩ := app_cases (c := c) (env := env) hload q hb s
  refine ⟨f, res, h1, ?_⟩
  rcases h2 with ⟨h2, hno⟩ | ⟨m, ps, ans, hreg, hcount, hps, hback, hans, h2⟩
  · exact .inl ⟨fun hh => hno _ (List.mem_singleton.2 rfl) ((toUpper_eq_iff hv hm).2 hh.1), h2⟩
  have hps1 : ∀ p' ∈ ps, ∃ k, p' = { p with attachment := k } := by
    intro p' hp'
    obtain ⟨rt, hrt, p0, k, ha, rfl⟩ := hps p' hp'
    rw [List.mem_singleton] at hrt
    subst hrt
    rw [hp] at ha
    cases ha
    exact ⟨k, rfl⟩
  have hraw : p.raw = pat := parse_raw hp
  match ps, hcount, hps1, hreg, hback with
  | [], _, _, hreg, hback =>
    rcases h2 with ⟨rfl, _⟩ | ⟨rfl, h2⟩ | ⟨p', labels, rfl, rt, hrt, hmeth, p0, k, segs, hp0, hpe, hsegs, h2⟩
    · exact absurd (hans f (Nat.le_refl _)) (c17_no_crash_partial hreg (by simp) hb hlen (by simp) f)
    · refine .inl ⟨fun hh => ?_, h2⟩
      obtain ⟨p0, k, _, hk⟩ := hback _ (List.mem_singleton.2 rfl) ((toUpper_eq_iff hv hm).2 hh.1)
      cases hk
    · exact absurd (c14_described_partial hl hreg (by simp) hb hlen hf (hans f (Nat.le_refl _))).1 (by simp)
  | [p'], _, hps1, hreg, hback =>
    obtain ⟨k0, rfl⟩ := hps1 p' (List.mem_singleton.2 rfl)
    have hfa : Faithful ci [{ p with attachment := k0 }] (segmentsOf q.path) :=
      ⟨by simpa using hfaith.wild p (by simp), fun hc => by simpa using hfaith.pats hc p (by simp), hfaith.request⟩
    obtain ⟨f', h3⟩ := c18_single_exact_partial hl hreg hplain (by rw [← hraw] at hlong; exact hlong) (hdeep.imp id .inl) hb hlen hf hfa
    have h4 := h3 (max f f') (by omega)
    rw [hans (max f f') (by omega)] at h4
    rcases h2 with ⟨rfl, _⟩ | ⟨rfl, h2⟩ | ⟨p', labels, rfl, rt, hrt, hmeth, p0, k, segs, hp0, hpe, hsegs, h2⟩
    · rcases h4 with ⟨_, _, h4⟩ | ⟨_, h4⟩ <;> cases h4
    · rcases h4 with ⟨_, _, h4⟩ | ⟨h4, _⟩
      · cases h4
      · exact .inl ⟨fun hh => h4 hh.2, h2⟩
    · right
      rw [List.mem_singleton] at hrt
      subst hrt
      rw [hp] at hp0
      cases hp0
      obtain ⟨segs', bs, e1, e2, e3⟩ := c15_variables_partial hl hreg (by simpa using hplain) hb hlen hf (hans f (Nat.le_refl _))
        (by rw [hpe]; rw [← hraw] at hlong; exact hlong)
      rw [hsegs] at e1
      cases e1
      have hseg : p'.segments = p.segments := by rw [hpe]
      rw [hseg] at e2 e3
      exact ⟨(toUpper_eq_iff hv hm).1 hmeth, bs, e2, by rw [h2, ranWith, funext e3]⟩

/-! ### C127 -/

/-- C127, exactly: behind `ErrJsonResponse`, `SecurityPrincipalSupplier` and `AuthorizeAll`, given to the first mux before
anything else, a request whose principal lacks one of the permissions, or has no principal, runs nothing of the
application but the supplier, whatever else the program registers and wherever, unless it is for the assets or
for a debug endpoint, which are served to everyone; otherwise the client gets 404, or JSON with status 401, or
the documented status of the supplier's error (or matching crashes). -/
theorem c127_exact (he : Orders env) (cfg : Str) (assets : Option Str) (files : Str → AHandler σ)
    (sps : Ctx → Req → σ → Except Err (Option Principal) × σ) (perms : List Auth.Permission) (ops : List (Mux.Op (AHandler σ)))
    {r : Router} {rts : List (Mux.Route (AHandler σ))}
    (hrts : rts = (run (World.new cfg assets files) (.common 0 [some (lift (errJsonResponse quote)), some (lift (principalSupplier sps)), some (lift (authorizeAll perms))] :: ops)).routes)
    (hload : load x other (newRouter ci) 0 rts = some r)
    (q : AReq) {buf : List USeg} (hb : buf.length = 19) (s : σ)
    (hlacks : ∀ p, (sps {} q.req s).1 = .ok (some p) → ∃ pm ∈ perms, p.hasPermission pm = false) :
    ∃ f res, (∀ g, f ≤ g → serveApp (c := c) x other env r (rts.map (·.handler)) q buf g s = some res) ∧
      (res = (.panic {}, s) ∨ res = (bare 404, s) ∨
        (∃ rt vars, (AssetsRoute cfg assets files rt ∨ DebugRoute ops rt) ∧ toUpper other rt.method = toUpper other q.req.method ∧
          res = (deliver env (shown q) (rt.handler vars {} q.req s).1, (rt.handler vars {} q.req s).2)) ∨
        res.2 = (sps {} q.req s).2 ∧ ∃ e code msg w', (e = .unauthorized ∨ (sps {} q.req s).1 = .error e) ∧ DocumentedStatus e code ∧ Says e msg ∧
          res.1 = .ret true w' ∧ Sent env w'.base.out { status := code, type := b!"application/json", body := b!"{\"error\":" ++ quote msg ++ b!"}" }) := by
  obtain ⟨f, res, h1, h2⟩ := app_cases (c := c) (env := env) hload q hb s
  refine ⟨f, res, h1, ?_⟩
  rcases h2 with ⟨h2, _⟩ | ⟨m, ps, ans, _, _, _, _, _, h2⟩
  · exact .inr (.inl h2)
  rcases h2 with ⟨_, h2⟩ | ⟨_, h2⟩ | ⟨p, labels, _, rt, hrt, hmeth, p0, k, segs, _, _, _, h2⟩
  · exact .inl h2
  · exact .inr (.inl h2)
  right; right
  rw [hrts] at hrt
  rcases c81_exact cfg assets files _ ops rt hrt with ⟨k, hk⟩ | hopen
  case inr => exact .inl ⟨rt, _, hopen, hmeth, h2⟩
  right
  generalize pathVarText q.path p labels segs = vars at h2
  have key : ∃ e, (e = .unauthorized ∨ (sps {} q.req s).1 = .error e) ∧
      principalSupplier sps (authorizeAll perms (k vars)) {} q.req s = (.ret none (some e), (sps {} q.req s).2) := by
    rcases hsp : sps {} q.req s with ⟨res', s'⟩
    rw [hsp] at hlacks
    cases res' with
    | error e => exact ⟨e, .inr rfl, by simp [principalSupplier, hsp]⟩
    | ok po =>
      refine ⟨.unauthorized, .inl rfl, ?_⟩
      cases po with
      | none => simp [principalSupplier, hsp, authorizeAll, authorize]
      | some p =>
        obtain ⟨pm, h3, h4⟩ := hlacks p rfl
        have : hasAll p perms = false := by
          cases hh : hasAll p perms with
          | false => rfl
          | true => rw [(hasAll_iff p perms).1 hh pm h3] at h4; cases h4
        simp [principalSupplier, hsp, authorizeAll, authorize, this]
  obtain ⟨e, h3, h4⟩ := key
  obtain ⟨code, msg, w', d1, d2, d3, d4, d5⟩ := (c89_json_error (c := c) (quote := quote) he _ {} q.req (shown q) s).1 none e _ h4
  have hh : rt.handler vars = errJsonResponse quote (principalSupplier sps (authorizeAll perms (k vars))) := by
    rw [hk]; rfl
  rw [h2, ranWith, hh]
  exact ⟨d3, e, code, msg, w', h3, d1, d2, d4, d5⟩

/-- C127 for applications without debug endpoints and assets: behind `ErrJsonResponse`,
`SecurityPrincipalSupplier` and `AuthorizeAll`, given to the first mux before anything else, a request
whose principal lacks one of the permissions, or has no principal, runs nothing of the application but the
supplier, whatever else the program registers and wherever; the client gets 404, or JSON with status 401, or
the documented status of the supplier's error (or matching crashes). -/
theorem c127_guarded_partial (he : Orders env) (cfg : Str) (files : Str → AHandler σ)
    (sps : Ctx → Req → σ → Except Err (Option Principal) × σ) (perms : List Auth.Permission) (ops : List (Mux.Op (AHandler σ))) (hno : ¬ UsesDebug ops)
    {r : Router} {rts : List (Mux.Route (AHandler σ))}
    (hrts : rts = (run (World.new cfg none files) (.common 0 [some (lift (errJsonResponse quote)), some (lift (principalSupplier sps)), some (lift (authorizeAll perms))] :: ops)).routes)
    (hload : load x other (newRouter ci) 0 rts = some r)
    (q : AReq) {buf : List USeg} (hb : buf.length = 19) (s : σ)
    (hlacks : ∀ p, (sps {} q.req s).1 = .ok (some p) → ∃ pm ∈ perms, p.hasPermission pm = false) :
    ∃ f res, (∀ g, f ≤ g → serveApp (c := c) x other env r (rts.map (·.handler)) q buf g s = some res) ∧
      (res = (.panic {}, s) ∨ res = (bare 404, s) ∨
        res.2 = (sps {} q.req s).2 ∧ ∃ e code msg w', (e = .unauthorized ∨ (sps {} q.req s).1 = .error e) ∧ DocumentedStatus e code ∧ Says e msg ∧
          res.1 = .ret true w' ∧ Sent env w'.base.out { status := code, type := b!"application/json", body := b!"{\"error\":" ++ quote msg ++ b!"}" }) := by
  obtain ⟨f, res, h1, h2⟩ := c127_exact (c := c) (quote := quote) he cfg none files sps perms ops hrts hload q hb s hlacks
  refine ⟨f, res, h1, ?_⟩
  rcases h2 with h2 | h2 | ⟨rt, vars, ⟨mapping, h3, _⟩ | ⟨v, d, _, _, h3, _⟩, _⟩ | h2
  · exact .inl h2
  · exact .inr (.inl h2)
  · cases h3
  · exact absurd ⟨v, d, h3⟩ hno
  · exact .inr (.inr h2)

/-! ### Examples -/

/-- The status lines on the connection. -/
def statusesOf (out : List Ev) : List Nat :=
  out.filterMap fun
    | .info code _ => some code
    | .head code _ => some code
    | .data _ => none
    | .flush => none
    | .hijack => none

/-- The statuses a client sees and the state afterwards, if the application starts. -/
def tried (rts : List (Mux.Route (AHandler σ))) (q : AReq) (fuel : Nat) (s : σ) : Option (List Nat × σ) :=
  (load plainExt id (newRouter false) 0 rts).bind fun r =>
    (serveApp (c := dotCodec) plainExt id simpleEnv r (rts.map (·.handler)) q freshBuf fuel s).map fun p => (statusesOf p.1.w.base.out, p.2)

theorem tried_spec {rts : List (Mux.Route (AHandler σ))} {q : AReq} {fuel : Nat} {s : σ} {l : List Nat} {s' : σ} (h : tried rts q fuel s = some (l, s')) :
    ∃ r res, load plainExt id (newRouter false) 0 rts = some r ∧
      serveApp (c := dotCodec) plainExt id simpleEnv r (rts.map (·.handler)) q freshBuf fuel s = some (res, s') ∧ statusesOf res.w.base.out = l := by
  unfold tried at h
  simp only [Option.bind_eq_some_iff, Option.map_eq_some_iff, Prod.mk.injEq] at h
  obtain ⟨r, h1, ⟨res, s2⟩, h2, h3, h4⟩ := h
  simp only at h4
  subst h4
  exact ⟨r, res, h1, h2, h3⟩

/-- A middleware that notes its name. -/
def noting (name : Str) : Option (AHandler (List Str) → AHandler (List Str)) :=
  some (lift fun h ctx req s => h ctx req (s ++ [name]))

/-- A handler that notes a variable and answers. -/
def showing (name : Str) : AHandler (List Str) := fun vars _ _ s =>
  (.ret (some (.resp (Build.plainTextOK b!"ok"))) none, s ++ [(vars name).getD b!"?"])

/-- A program with a sub-router, common and own middlewares. -/
def sampleApp : List (Mux.Op (AHandler (List Str))) :=
  [.common 0 [noting b!"log"], .sub 0 b!"/api", .common 1 [noting b!"auth"], Mux.handleGet 1 b!"/users/{id}" (showing b!"id") [noting b!"own"],
    Mux.handlePost 0 b!"/files/**" (showing b!"id") []]

/-- Exactly the chain of the matching route runs. -/
example : tried (run World.init sampleApp).routes { req := { method := b!"get" }, path := b!"/api/users/7" } 20 [] =
      some ([200], [b!"log", b!"auth", b!"own", b!"7"]) ∧
    tried (run World.init sampleApp).routes { req := { method := b!"POST" }, path := b!"/files/a/b" } 20 [] = some ([200], [b!"log", []]) ∧
    tried (run World.init sampleApp).routes { req := { method := b!"POST" }, path := b!"/api/users/7" } 20 [] = some ([404], []) := by
  refine ⟨?_, ?_, ?_⟩ <;> decide +kernel

/-- The hypotheses of C126 hold for it. -/
example : (∀ p ∈ patternsOf plainExt false (routesMade sampleApp.reverse), (∀ seg ∈ p.segments, Plain false seg) ∧ (pieces p.raw).length < 256 ∧ StarsLast p.segments ∧
      (p.segments.length ≤ 18 ∨ ∀ s ∈ p.segments, s.kind ≠ .multiple)) ∧
    (routesMade sampleApp.reverse).length < 65536 ∧ (∀ rt ∈ routesMade sampleApp.reverse, Ascii rt.method) ∧
    Faithful false (patternsOf plainExt false (routesMade sampleApp.reverse)) (segmentsOf b!"/api/users/7") ∧ Fits b!"/api/users/7" ∧
    ∀ p ∈ patternsOf plainExt false (routesMade sampleApp.reverse), ∀ k, 0 < k → k < p.segments.length →
      ¬ Describes plainExt false (p.segments.take k) (segmentsOf b!"/api/users/7") := by
  have hr : (routesMade sampleApp.reverse).map (fun r => (r.method, r.path)) = [(b!"GET", b!"/api/users/{id}"), (b!"POST", b!"/files/**")] := by decide
  have hp : patternsOf plainExt false (routesMade sampleApp.reverse) = [patOf plainExt false b!"/api/users/{id}" 0, patOf plainExt false b!"/files/**" 0] := by
    decide +kernel
  have h1 : (patOf plainExt false b!"/api/users/{id}" 0).segments =
      [{ val := b!"api", kind := .literal }, { val := b!"users", kind := .literal }, { val := b!"{id}", kind := .capture, varName := b!"id" }] := by decide +kernel
  have h2 : (patOf plainExt false b!"/files/**" 0).segments = [{ val := b!"files", kind := .literal }, { val := b!"**", kind := .multiple }] := by decide +kernel
  refine ⟨?_, by decide, ?_, ?_, fits_of_peak _ (by decide), ?_⟩
  · rw [hp]
    intro p h
    rcases List.mem_cons.1 h with rfl | h
    · refine ⟨fun s hs => plain_of_B ?_, by decide +kernel, ?_, .inl (by rw [h1]; decide)⟩
      · rw [h1] at hs; revert s; decide
      · rw [h1]; exact starsLast_of_B (by decide)
    · rw [List.mem_singleton] at h
      subst h
      refine ⟨fun s hs => plain_of_B ?_, by decide +kernel, ?_, .inl (by rw [h2]; decide)⟩
      · rw [h2] at hs; revert s; decide
      · rw [h2]; exact starsLast_of_B (by decide)
  · intro rt hrt
    have : (rt.method, rt.path) ∈ (routesMade sampleApp.reverse).map (fun r => (r.method, r.path)) := List.mem_map.2 ⟨rt, hrt, rfl⟩
    rw [hr] at this
    simp only [List.mem_cons, Prod.mk.injEq, List.not_mem_nil, or_false] at this
    rcases this with ⟨h, _⟩ | ⟨h, _⟩ <;> rw [h] <;> simp only [Ascii] <;> decide
  · rw [hp]
    refine ⟨?_, by simp, by simp⟩
    intro p h s hs hk
    rcases List.mem_cons.1 h with rfl | h
    · rw [h1] at hs; simp at hs; rcases hs with rfl | rfl | rfl <;> cases hk
    · rw [List.mem_singleton] at h
      subst h
      rw [h2] at hs; simp at hs; rcases hs with rfl | rfl <;> cases hk
  · rw [hp]
    have hu : segmentsOf b!"/api/users/7" = [b!"api", b!"users", b!"7"] := by decide
    have len : ∀ ss : List Segment, (∀ s ∈ ss, s.kind ≠ .multiple) → ∀ us, Describes plainExt false ss us → us.length = ss.length := by
      intro ss
      induction ss with
      | nil => intro _ us h; rw [describes_nil.1 h]; rfl
      | cons s ss ih =>
        intro hs us h
        obtain ⟨u, vs, rfl, _, h3⟩ := (describes_one (hs s (by simp))).1 h
        simp [ih (fun t ht => hs t (by simp [ht])) vs h3]
    intro p h k hk0 hk hd
    rcases List.mem_cons.1 h with rfl | h
    · have := len _ (fun s hs => by
        have hs := List.mem_of_mem_take hs
        rw [h1] at hs
        simp at hs
        rcases hs with rfl | rfl | rfl <;> simp) _ hd
      rw [hu, List.length_take, h1] at this
      rw [h1] at hk
      simp at hk
      simp at this
      omega
    · rw [List.mem_singleton] at h
      subst h
      rw [h2] at hk hd
      have hk1 : k = 1 := by simp at hk; omega
      subst hk1
      have := len _ (by decide) _ hd
      rw [hu] at this
      simp at this

/-- The hypotheses of `c126_exact_partial` for a program whose route `/{x}` is hidden from `/a` by the beginning of `/a/b`; the route for POST does not count. -/
example : ∃ (ops : List (Mux.Op (AHandler (List Str)))) (pats : List Pattern), pats = patternsOf plainExt false (routesOn b!"GET" (routesMade ops.reverse)) ∧
    (load plainExt id (newRouter false) 0 (run World.init ops).routes).isSome = true ∧
    (∀ rt ∈ routesMade ops.reverse, Ascii rt.method) ∧ (∀ p ∈ pats, (∀ seg ∈ p.segments, Plain false seg) ∧ (pieces p.raw).length ≤ 19 ∧ StarsLast p.segments) ∧
    Fits b!"/a" ∧ Faithful false pats (segmentsOf b!"/a") ∧ Settled plainExt false pats (segmentsOf b!"/a") ∧ Unrivalled plainExt false pats (segmentsOf b!"/a") ∧
    pats.length = 2 ∧ Hidden plainExt false pats (segmentsOf b!"/a") (patOf plainExt false b!"/{x}" 0).segments := by
  have same : ∀ s : Str, SameMethod s s := fun s => by
    unfold SameMethod
    induction s with
    | nil => exact .nil
    | cons a s ih => exact .cons (.inl rfl) ih
  have hp : patternsOf plainExt false (routesOn b!"GET" (routesMade [Mux.handleGet 0 b!"/{x}" (showing b!"x") [], Mux.handleGet 0 b!"/a/b" (showing b!"x") [],
      Mux.handlePost 0 b!"/a" (showing b!"x") []].reverse)) = [patOf plainExt false b!"/{x}" 0, patOf plainExt false b!"/a/b" 0] := by
    have e : routesOn b!"GET" (routesMade [Mux.handleGet 0 b!"/{x}" (showing b!"x") [], Mux.handleGet 0 b!"/a/b" (showing b!"x") [],
        Mux.handlePost 0 b!"/a" (showing b!"x") []].reverse) = (routesMade [Mux.handleGet 0 b!"/{x}" (showing b!"x") [], Mux.handleGet 0 b!"/a/b" (showing b!"x") [],
        Mux.handlePost 0 b!"/a" (showing b!"x") []].reverse).take 2 := by
      unfold routesOn
      have e : routesMade [Mux.handleGet 0 b!"/{x}" (showing b!"x") [], Mux.handleGet 0 b!"/a/b" (showing b!"x") [],
        Mux.handlePost 0 b!"/a" (showing b!"x") []].reverse = [⟨b!"GET", b!"/{x}", _⟩, ⟨b!"GET", b!"/a/b", _⟩, ⟨b!"POST", b!"/a", _⟩] := rfl
      rw [e]
      have hne : ¬ SameMethod b!"POST" b!"GET" := fun h => by have := h.length; revert this; decide
      simp [List.filter, same, hne]
    rw [e]
    decide +kernel
  have s1 : (patOf plainExt false b!"/{x}" 0).segments = [{ val := b!"{x}", kind := .capture, varName := b!"x" }] := by decide +kernel
  have s2 : (patOf plainExt false b!"/a/b" 0).segments = [{ val := b!"a", kind := .literal }, { val := b!"b", kind := .literal }] := by decide +kernel
  have hus : segmentsOf b!"/a" = [b!"a"] := by decide
  have hb : bareB [patOf plainExt false b!"/{x}" 0, patOf plainExt false b!"/a/b" 0] = true := by decide +kernel
  obtain ⟨b1, b2, b3, b4, b5, b6⟩ := bare_spec hb (segmentsOf b!"/a")
  refine ⟨_, _, hp.symm, by decide +kernel, ?_, fun p h => ⟨b1 p h, b2 p h, b3 p h⟩, fits_of_peak _ (by decide), b4, b5, b6, rfl, ?_⟩
  · intro rt hrt
    have : rt.method ∈ [b!"GET", b!"GET", b!"POST"] := List.mem_map.2 ⟨rt, hrt, rfl⟩
    simp only [List.mem_cons, List.not_mem_nil, or_false] at this
    rcases this with h | h | h <;> rw [h] <;> simp only [Ascii] <;> decide
  · refine ⟨patOf plainExt false b!"/a/b" 0, by simp, 1, by decide, by rw [s2]; decide, ?_, ?_, [], .literal, .capture, by rw [s2]; rfl, by rw [s1]; rfl, by decide⟩
    · rw [hus, s2]
      exact (describes_one (by decide)).2 ⟨_, [], rfl, .inl rfl, describes_nil.2 rfl⟩
    · intro p hp _ hk
      rw [s2] at hk
      simp only [List.mem_cons, List.not_mem_nil, or_false] at hp
      rcases hp with rfl | rfl
      · rw [s1] at hk; revert hk; decide
      · rw [s2] at hk; revert hk; decide

/-- C126 fails: with `/{x}` and `/a/b` registered for GET, the request for `/a` is answered 404 and
nothing runs, although the first route is for it. -/
theorem c126_violated : ∃ (ops : List (Mux.Op (AHandler (List Str)))) (r : Router) (res : WRes dotCodec) (vars : Str → Str), RealSplits ops.reverse ∧
    (∃ rt ∈ routesOf ops.reverse, Serves plainExt false rt b!"GET" b!"/a" vars) ∧
    load plainExt id (newRouter false) 0 (run World.init ops).routes = some r ∧
    serveApp plainExt id simpleEnv r ((run World.init ops).routes.map (·.handler)) { req := { method := b!"GET" }, path := b!"/a" } freshBuf 20 [] = some (res, []) ∧
    statusesOf res.w.base.out = [404] := by
  obtain ⟨r, res, h1, h2, h3⟩ := tried_spec (rts := (run World.init [Mux.handleGet 0 b!"/a/b" (showing b!"x") [], Mux.handleGet 0 b!"/{x}" (showing b!"x") []]).routes)
    (q := { req := { method := b!"GET" }, path := b!"/a" }) (fuel := 20) (s := []) (l := [404]) (s' := []) (by decide +kernel)
  have hseg : (patOf plainExt false b!"/{x}" 0).segments = [{ val := b!"{x}", kind := .capture, varName := b!"x" }] := by decide +kernel
  refine ⟨_, r, res, _, by simp [RealSplits, Mux.handleGet], ⟨⟨b!"GET", b!"/{x}", showing b!"x"⟩, ?_, ?_, patOf plainExt false b!"/{x}" 0, [[b!"a"]], ?_, ?_, fun _ => rfl⟩, h1, h2, h3⟩
  · simp [routesOf, count, Mux.handleGet, prefixOf, joinPath, wrapAll, commonOf]
  · exact (toUpper_eq_iff (other := id) (by simp only [Ascii]; decide) (by simp only [Ascii]; decide)).1 rfl
  · decide +kernel
  · rw [hseg]
    exact ⟨.cons ⟨by simp, by simp [Fit]⟩ .nil, by decide, by simp⟩

/-- The middlewares of C127. -/
def guards (sps : Ctx → Req → List Str → Except Err (Option Principal) × List Str) (perms : List Auth.Permission) : List (Option (AHandler (List Str) → AHandler (List Str))) :=
  [some (lift (errJsonResponse id)), some (lift (principalSupplier sps)), some (lift (authorizeAll perms))]

/-- Nobody signed in, and one who lacks the permission: only the supplier ran. -/
example : tried (run (World.new b!"/" none fun _ => showing b!"x") (.common 0 (guards (fun _ _ s => (.ok none, s ++ [b!"asked"])) [⟨b!"admin", 1⟩]) ::
      [.sub 0 b!"/api", Mux.handleGet 1 b!"/users/{id}" (showing b!"id") [noting b!"own"]])).routes
      { req := { method := b!"GET" }, path := b!"/api/users/7" } 20 [] = some ([401], [b!"asked"]) ∧
    tried (run (World.new b!"/" none fun _ => showing b!"x") (.common 0 (guards (fun _ _ s => (.ok (some ⟨fun _ => false⟩), s ++ [b!"asked"])) [⟨b!"admin", 1⟩]) ::
      [.sub 0 b!"/api", Mux.handleGet 1 b!"/users/{id}" (showing b!"id") [noting b!"own"]])).routes
      { req := { method := b!"GET" }, path := b!"/api/users/7" } 20 [] = some ([401], [b!"asked"]) ∧
    tried (run (World.new b!"/" none fun _ => showing b!"x") (.common 0 (guards (fun _ _ s => (.ok (some ⟨fun _ => true⟩), s ++ [b!"asked"])) [⟨b!"admin", 1⟩]) ::
      [.sub 0 b!"/api", Mux.handleGet 1 b!"/users/{id}" (showing b!"id") [noting b!"own"]])).routes
      { req := { method := b!"GET" }, path := b!"/api/users/7" } 20 [] = some ([200], [b!"asked", b!"own", b!"7"]) ∧
    tried (run (World.new b!"/" none fun _ => showing b!"x") (.common 0 (guards (fun _ _ s => (.error (.other b!"db"), s ++ [b!"asked"])) [⟨b!"admin", 1⟩]) ::
      [.sub 0 b!"/api", Mux.handleGet 1 b!"/users/{id}" (showing b!"id") [noting b!"own"]])).routes
      { req := { method := b!"GET" }, path := b!"/api/users/7" } 20 [] = some ([500], [b!"asked"]) := by
  refine ⟨?_, ?_, ?_, ?_⟩ <;> decide +kernel

/-- C127 fails with debug endpoints and with assets: a client who is not signed in gets the command line
of the process and the files. -/
theorem c127_violated : ∃ (d : Mux.Debug (AHandler (List Str))) (files : Str → AHandler (List Str)) (sps : Ctx → Req → List Str → Except Err (Option Principal) × List Str)
    (perms : List Auth.Permission), (∀ ctx req s, sps ctx req s = (.ok none, s)) ∧ perms ≠ [] ∧
    (∃ (r : Router) (res : WRes dotCodec),
      load plainExt id (newRouter false) 0 (run (World.new b!"/" none files) [.common 0 (guards sps perms), .debug 0 d]).routes = some r ∧
      serveApp plainExt id simpleEnv r ((run (World.new b!"/" none files) [.common 0 (guards sps perms), .debug 0 d]).routes.map (·.handler))
        { req := { method := b!"GET" }, path := b!"/debug/pprof/cmdline" } freshBuf 30 [] = some (res, [b!"cmdline"]) ∧
      statusesOf res.w.base.out = [200]) ∧
    ∃ (r : Router) (res : WRes dotCodec),
      load plainExt id (newRouter false) 0 (run (World.new b!"/" (some []) files) [.common 0 (guards sps perms)]).routes = some r ∧
      serveApp plainExt id simpleEnv r ((run (World.new b!"/" (some []) files) [.common 0 (guards sps perms)]).routes.map (·.handler))
        { req := { method := b!"GET" }, path := b!"/assets/a.txt" } freshBuf 30 [] = some (res, [b!"/assets/"]) ∧
      statusesOf res.w.base.out = [200] := by
  have h1 := tried_spec (rts := (run (World.new b!"/" none fun p => (fun _ _ _ s => (.ret (some (.resp (Build.plainTextOK b!"file"))) none, s ++ [p])))
      [.common 0 (guards (fun _ _ s => (.ok none, s)) [⟨b!"admin", 1⟩]),
        .debug 0 ⟨showing b!"", fun _ _ _ s => (.ret (some (.resp (Build.plainTextOK b!"server"))) none, s ++ [b!"cmdline"]), showing b!"", showing b!"", showing b!"", showing b!""⟩]).routes)
    (q := { req := { method := b!"GET" }, path := b!"/debug/pprof/cmdline" }) (fuel := 30) (s := []) (l := [200]) (s' := [b!"cmdline"]) (by decide +kernel)
  have h2 := tried_spec (rts := (run (World.new b!"/" (some []) fun p => (fun _ _ _ s => (.ret (some (.resp (Build.plainTextOK b!"file"))) none, s ++ [p])))
      [.common 0 (guards (fun _ _ s => (.ok none, s)) [⟨b!"admin", 1⟩])]).routes)
    (q := { req := { method := b!"GET" }, path := b!"/assets/a.txt" }) (fuel := 30) (s := []) (l := [200]) (s' := [b!"/assets/"]) (by decide +kernel)
  exact ⟨_, _, _, _, fun _ _ _ => rfl, by simp, h1, h2⟩

end Gofre.Props
