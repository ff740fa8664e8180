import Verif.Props.Router
import Verif.Props.Shared

/-! # C26: which requests reach a handler although no route describes them -/

namespace Gofre.Props
open Gofre.Path
open Gofre.Spec (Route Built Describes Fit FoldLaws Registered Fits segmentsOf Ascii OwnSegments)

variable {x : Ext} {other : Str → Str} {ci : Bool}

/-- A handler that ran was found. -/
theorem ran_found {es : List Route} {r : Router} (hr : Built x other sortSiblings ci es r) (behave : Nat → Behaviour) (method path : Str)
    {buf : List USeg} (hb : buf.length = 19) {g h : Nat} {rest : List Event} (hs : serveHTTP x other r behave method path buf g = some (.ran h :: rest)) :
    ∃ m ps p labels, Registered x ci sortSiblings ps m ∧ lookup x ci m path buf g = some (.found p labels) ∧ p.attachment = h ∧
      ∀ q ∈ ps, ∃ e ∈ es, toUpper other e.method = toUpper other method ∧ ∃ q0, parsePattern x ci e.pat = .ok q0 ∧ q = { q0 with attachment := e.handler } := by
  obtain ⟨hci, hm⟩ := built_matchers hr
  rw [serve_answer behave method path hb] at hs
  cases hmat : r.matchers (toUpper other method) with
  | none => rw [hmat] at hs; simp at hs
  | some m =>
    rw [hmat, hci] at hs
    obtain ⟨ps, h1, h2⟩ := (hm _).2 m hmat
    simp only [Option.map_eq_some_iff] at hs
    obtain ⟨res, h3, h4⟩ := hs
    cases res with
    | panic => simp [finish] at h4
    | none => simp [finish] at h4
    | found p labels =>
      simp only [finish, List.cons.injEq, Event.ran.injEq] at h4
      refine ⟨m, ps, p, labels, h1, h3, h4.1, fun q hq => ?_⟩
      obtain ⟨e, he, q0, h5, h6⟩ := h2.mem_right hq
      have hee : e ∈ es ∧ toUpper other e.method = toUpper other method := by simpa [routesFor] using he
      exact ⟨e, hee.1, hee.2, q0, h5, h6⟩

/-- C26 for all routes: when no route of the method describes the path and yet a handler runs, it is because of two segments of two routes of the
method that share a node: a constraint that is the text of a whole constrained variable, or, ignoring case, wildcard segments that are not
ASCII.  The handler is that of one of the two routes. -/
theorem c26_stray (hl : FoldLaws x.eqFold) {es : List Route} {r : Router} (hr : Built x other sortSiblings ci es r)
    (behave : Nat → Behaviour) (method path : Str) {buf : List USeg} (hb : buf.length = 19) (hlen : path.length ≤ 65535) (hf : Fits path)
    (hno : ∀ e ∈ es, toUpper other e.method = toUpper other method → ∀ p, parsePattern x ci e.pat = .ok p → ¬ Describes x ci p.segments (segmentsOf path))
    {g h : Nat} {rest : List Event} (hs : serveHTTP x other r behave method path buf g = some (.ran h :: rest)) :
    ∃ e ∈ es, ∃ e' ∈ es, e.handler = h ∧ toUpper other e.method = toUpper other method ∧ toUpper other e'.method = toUpper other method ∧
      ∃ p q, parsePattern x ci e.pat = .ok p ∧ parsePattern x ci e'.pat = .ok q ∧
        ∃ s ∈ p.segments, ∃ t ∈ q.segments, ∃ u ∈ segmentsOf path, Fit x ci t u ∧ ¬ Fit x ci s u ∧
          ((ci = false ∧ s.kind = .constraint ∧ t.kind = .constraint ∧ s.re = some t.val) ∨
            (ci = true ∧ s.kind = .regex ∧ t.kind = .regex ∧ x.eqFold s.val t.val = true ∧ ¬ (Ascii s.val ∧ Ascii t.val))) := by
  obtain ⟨m, ps, p, labels, h1, h2, h3, h4⟩ := ran_found hr behave method path hb hs
  obtain ⟨hp, -⟩ := c14_stands h1 hb hlen hf h2
  obtain ⟨e, he, hem, p0, hp0, rfl⟩ := h4 p hp
  obtain ⟨s, hs', q, hq, t, ht, u, hu, h5⟩ := c14_culprit hl h1 hb hlen hf h2 (hno e he hem p0 hp0)
  obtain ⟨e', he', hem', q0, hq0, rfl⟩ := h4 q hq
  exact ⟨e, he, e', he', h3, hem, hem', p0, q0, hp0, hq0, s, hs', t, ht, u, hu, h5⟩

/-- C26 for paths of more segments than the router has places for: only the handler of a pattern without segments runs. -/
theorem c26_overlong {es : List Route} {r : Router} (hr : Built x other sortSiblings ci es r)
    (behave : Nat → Behaviour) (method path : Str) {buf : List USeg} (hb : buf.length = 19) (hf : ¬ Fits path)
    {g h : Nat} {rest : List Event} (hs : serveHTTP x other r behave method path buf g = some (.ran h :: rest)) :
    ∃ e ∈ es, e.handler = h ∧ toUpper other e.method = toUpper other method ∧ ∃ p, parsePattern x ci e.pat = .ok p ∧ p.segments = [] := by
  obtain ⟨m, ps, p, labels, h1, h2, h3, h4⟩ := ran_found hr behave method path hb hs
  obtain ⟨hp, hseg⟩ := c14_overflow h1 hb hf h2
  obtain ⟨e, he, hem, p0, hp0, rfl⟩ := h4 p hp
  exact ⟨e, he, h3, hem, p0, hp0, hseg⟩

/-- C26: with routes in which no constraint begins with a brace and, ignoring case, no wildcard segment, a request described by no route of the method runs no handler,
whatever else is registered for other methods. -/
theorem c26_not_found_own_partial (hl : FoldLaws x.eqFold) {es : List Route} {r : Router} (hr : Built x other sortSiblings ci es r)
    (behave : Nat → Behaviour) (method path : Str) {buf : List USeg} (hb : buf.length = 19) (hlen : path.length ≤ 65535) (hf : Fits path)
    (hown : ∀ e ∈ es, toUpper other e.method = toUpper other method → ∀ p, parsePattern x ci e.pat = .ok p → OwnSegments ci p.segments)
    (hno : ∀ e ∈ es, toUpper other e.method = toUpper other method → ∀ p, parsePattern x ci e.pat = .ok p → ¬ Describes x ci p.segments (segmentsOf path)) :
    ∃ f evs, (∀ g, f ≤ g → serveHTTP x other r behave method path buf g = some evs) ∧ (evs = [.panic] ∨ evs = [.status 404]) := by
  obtain ⟨f, evs, h1, h2⟩ := c26_dispatch_partial hr behave method path hb
  refine ⟨f, evs, h1, ?_⟩
  rcases h2 with h2 | h2 | ⟨e, he, hem, rest, h2, -⟩
  · exact .inl h2
  · exact .inr h2
  · exfalso
    obtain ⟨m, ps, p, labels, g1, g2, g3, g4⟩ := ran_found hr behave method path hb (by rw [h1 f (Nat.le_refl _), h2])
    obtain ⟨hp, -⟩ := c14_stands g1 hb hlen hf g2
    obtain ⟨e', he', hem', p0, hp0, rfl⟩ := g4 p hp
    exact hno e' he' hem' p0 hp0 (c14_own_partial hl g1 hb hlen hf g2 (hown e' he' hem' p0 hp0)).2

/-- C26 fails: with `/{a:b}/p` and then `/{x:{a:b}}/q` registered, no route describes `/b/q`, yet the second handler runs. -/
theorem c26_violated_stray : ∃ es r fuel, Built plainExt id sortSiblings false es r ∧ Fits b!"/b/q" ∧
    (∀ e ∈ es, toUpper id e.method = toUpper id b!"GET" → ∀ p, parsePattern plainExt false e.pat = .ok p →
      ¬ Describes plainExt false p.segments (segmentsOf b!"/b/q")) ∧
    serveHTTP plainExt id r (fun _ => .responds false) b!"GET" b!"/b/q" freshBuf fuel = some [.ran 2, .wrote 2] := by
  obtain ⟨r, h1, h2⟩ := serve0_spec (l := [(b!"/{x:{a:b}}/q", 2), (b!"/{a:b}/p", 1)]) (behave := fun _ => .responds false)
    (path := b!"/b/q") (fuel := 20) (evs := [.ran 2, .wrote 2]) (by decide +kernel)
  refine ⟨_, r, 20, h1, fits_of_peak _ (by decide), ?_, h2⟩
  have hus : segmentsOf b!"/b/q" = [b!"b", b!"q"] := by decide
  intro e he _ p hp
  simp only [List.map_cons, List.map_nil, List.mem_cons, List.not_mem_nil, or_false] at he
  rcases he with rfl | rfl
  · have hseg : p.segments = [{ val := b!"{x:{a:b}}", kind := .constraint, varName := b!"x", re := some b!"{a:b}" }, { val := b!"q", kind := .literal }] := by
      have : parsePattern plainExt false b!"/{x:{a:b}}/q" = .ok (patOf plainExt false b!"/{x:{a:b}}/q" 0) := by decide +kernel
      rw [this] at hp
      cases hp
      decide +kernel
    rw [hseg]
    intro h
    obtain ⟨u, vs, h1, h2, _⟩ := (describes_one (by decide)).1 h
    rw [hus] at h1
    obtain ⟨rfl, rfl⟩ : b!"b" = u ∧ [b!"q"] = vs := by simpa using h1
    obtain ⟨src, h3, h4⟩ := h2
    cases h3
    revert h4
    decide
  · have hseg : p.segments = [{ val := b!"{a:b}", kind := .constraint, varName := b!"a", re := some b!"b" }, { val := b!"p", kind := .literal }] := by
      have : parsePattern plainExt false b!"/{a:b}/p" = .ok (patOf plainExt false b!"/{a:b}/p" 0) := by decide +kernel
      rw [this] at hp
      cases hp
      decide +kernel
    rw [hseg]
    intro h
    obtain ⟨u, vs, h1, _, h3⟩ := (describes_one (by decide)).1 h
    rw [hus] at h1
    obtain ⟨rfl, rfl⟩ : b!"b" = u ∧ [b!"q"] = vs := by simpa using h1
    obtain ⟨u, vs, h4, h5, _⟩ := (describes_one (by decide)).1 h3
    obtain ⟨rfl, rfl⟩ : b!"q" = u ∧ [] = vs := by simpa using h4
    revert h5
    simp only [Fit]
    decide

end Gofre.Props
