import Verif.Spec.SimpleRoutes
import Verif.Props.Handled
import Verif.Props.Exact

/-! # C17, C18, C19, C20, C23, C26 for applications without constraints and wildcards -/

namespace Gofre.Props
open Gofre.Path Gofre.Spec
variable {x : Ext} {other : Str → Str} {ci : Bool}

/-- Such routes are orderly for every request. -/
theorem simple_orderly {es : List Route} (hs : SimpleRoutes x ci es) (method : Str) {us : List Str} (hus : ci = true → ∀ u ∈ us, Ascii u) :
    Orderly x ci (patternsFor x other ci es method) us := by
  have from_route : ∀ p ∈ patternsFor x other ci es method, ∃ e ∈ es, ∃ p0, parsePattern x ci e.pat = .ok p0 ∧ p.segments = p0.segments ∧ p.raw = p0.raw := by
    intro p hp
    obtain ⟨e, he, -, -, p0, h0, rfl⟩ := mem_patternsFor hp
    exact ⟨e, he, p0, h0, rfl, rfl⟩
  have no : ∀ p ∈ patternsFor x other ci es method, ∀ s ∈ p.segments, s.kind ≠ .constraint ∧ s.kind ≠ .regex := by
    intro p hp s h
    obtain ⟨e, he, p0, h0, h1, -⟩ := from_route p hp
    exact hs.kinds e he p0 h0 s (h1 ▸ h)
  exact {
    plain := fun p hp s h => ⟨fun hk => absurd hk (no p hp s h).1, fun hk => absurd hk (no p hp s h).2⟩
    few := Nat.lt_of_le_of_lt (Nat.le_trans (List.length_filterMap_le ..) (List.length_filter_le ..)) hs.few
    short := fun p hp => by
      obtain ⟨e, he, p0, h0, -, h2⟩ := from_route p hp
      rw [h2]
      exact hs.short e he p0 h0
    stars := fun p hp => by
      obtain ⟨e, he, p0, h0, h1, -⟩ := from_route p hp
      rw [h1]
      exact hs.stars e he p0 h0
    faithful := ⟨fun p hp s h hk => absurd hk (no p hp s h).2, fun hc p hp s h hk => by
      obtain ⟨e, he, p0, h0, h1, -⟩ := from_route p hp
      exact hs.ascii hc e he p0 h0 s (h1 ▸ h) hk, hus⟩
    settled := fun p hp _ _ s h _ _ hk => absurd hk (no p hp s h).2
    unrivalled := List.Pairwise.imp_of_mem (R := fun _ _ => True) (fun {p _} hp _ _ s h _ _ hk => absurd hk (no p hp s h).1) (List.pairwise_of_forall fun _ _ => trivial) }

/-- C26 for simple routes: every request is answered, with 404 only if each route of its method that describes it is hidden, otherwise by the handler of a route of the
method that describes it; nothing crashes but the handler. -/
theorem c26_simple_partial (hl : FoldLaws x.eqFold) {es : List Route} {r : Router} (hr : Built x other sortSiblings ci es r) (hs : SimpleRoutes x ci es) (behave : Nat → Behaviour)
    (method path : Str) {buf : List USeg} (hb : buf.length = 19) (hlen : path.length ≤ 65535) (hf : Fits path) (hus : ci = true → ∀ u ∈ segmentsOf path, Ascii u) :
    ∃ f, ∀ g, f ≤ g →
      (serveHTTP x other r behave method path buf g = some [.status 404] ∧
        ∀ e ∈ es, toUpper other e.method = toUpper other method → ∀ p, parsePattern x ci e.pat = .ok p → Describes x ci p.segments (segmentsOf path) →
          Hidden x ci (patternsFor x other ci es method) (segmentsOf path) p.segments) ∨
      ∃ d ∈ es, toUpper other d.method = toUpper other method ∧ (∃ p, parsePattern x ci d.pat = .ok p ∧ Describes x ci p.segments (segmentsOf path)) ∧
        ∃ rest, serveHTTP x other r behave method path buf g = some (.ran d.handler :: rest) ∧
          (.panic ∈ rest ↔ behave d.handler = .panics ∨ behave d.handler = .noResponse) := by
  have ho := simple_orderly (other := other) hs method hus
  obtain ⟨m, h1, h2, -⟩ := serve_patterns hr method
  obtain ⟨f, hx⟩ := c18_exact_partial hl h1 ho.plain ho.few ho.short ho.stars hb hlen hf ho.faithful ho.settled ho.unrivalled
  refine ⟨f, fun g hg => ?_⟩
  obtain ⟨hne, hiff⟩ := hx g hg
  cases hlk : lookup x ci m path buf g with
  | none => exact absurd hlk hne
  | some res =>
    have hsv := h2 behave path buf g hb res hlk
    cases res with
    | panic => exact absurd hlk (orderly_no_crash h1 ho hb hlen g)
    | none => exact .inl ⟨hsv, fun e he hm p hp hd => hiff.1 hlk { p with attachment := e.handler } (patternsFor_mem he hm hp) hd⟩
    | found p labels =>
      obtain ⟨a1, a2, -⟩ := c19_exact_partial hl h1 ho.plain ho.few ho.short ho.stars hb hlen hf ho.faithful ho.settled ho.unrivalled hlk
      obtain ⟨d, d1, d2, d3, p0, d4, rfl⟩ := mem_patternsFor a1
      refine .inr ⟨d, d1, d2, ⟨p0, d4, a2⟩, _, by rw [hsv, finish], ?_⟩
      cases behave d.handler with
      | responds b => cases b <;> simp
      | _ => simp

theorem alike_describes : ∀ {ss ts : List Segment} {us : List Str}, (∀ s ∈ ss, s.kind ≠ .multiple ∧ s.kind ≠ .constraint ∧ s.kind ≠ .regex) → SameButNames ts ss →
    Describes x ci ss us → Describes x ci ts us
  | [], [], _, _, _, h => h
  | [], _ :: _, _, _, ha, _ => by simp [SameButNames] at ha
  | _ :: _, [], _, _, ha, _ => by simp [SameButNames] at ha
  | s :: ss, t :: ts, us, hn, ha, h => by
    simp only [SameButNames, List.map_cons, List.cons.injEq, Prod.mk.injEq] at ha
    obtain ⟨⟨hk, hv⟩, ha⟩ := ha
    have hs := hn s (by simp)
    rw [describes_one hs.1] at h
    rw [describes_one (by rw [hk]; exact hs.1)]
    obtain ⟨u, vs, rfl, hfit, hd⟩ := h
    refine ⟨u, vs, rfl, ?_, alike_describes (fun s' h' => hn s' (by simp [h'])) ha hd⟩
    unfold Fit at hfit ⊢
    rw [hk] at hv ⊢
    cases hsk : s.kind with
    | literal => rw [hsk] at hfit hv; simp only [if_true] at hv; rw [hv]; exact hfit
    | constraint => exact absurd hsk hs.2.1
    | regex => exact absurd hsk hs.2.2
    | unknown => rw [hsk] at hfit; exact hfit
    | _ => trivial

/-- Without traps nothing is hidden, by whatever list of the patterns of the method. -/
theorem no_traps_of {es : List Route} (hs : SimpleRoutes x ci es) (ht : NoTraps x other ci es) {method : Str} {us : List Str} {ps : List Pattern}
    (hto : ∀ q ∈ ps, ∃ d ∈ es, toUpper other d.method = toUpper other method ∧ ∃ q0, parsePattern x ci d.pat = .ok q0 ∧ q.segments = q0.segments)
    (hfrom : ∀ d ∈ es, toUpper other d.method = toUpper other method → ∀ q0, parsePattern x ci d.pat = .ok q0 → ∃ q ∈ ps, q.segments = q0.segments)
    {e : Route} (he : e ∈ es) (hm : toUpper other e.method = toUpper other method) {p : Pattern} (hp : parsePattern x ci e.pat = .ok p) :
    ¬ Hidden x ci ps us p.segments := by
  rintro ⟨q, hq, k, k0, k1, hd, hno, hc⟩
  obtain ⟨d, d1, d2, q0, d4, hqq⟩ := hto q hq
  rw [hqq] at k1 hd hno hc
  rcases ht d d1 q0 d4 k k0 k1 with ⟨b, b1, b2, b3, b4, b5⟩ | h
  · have hn : ∀ s ∈ q0.segments.take k, s.kind ≠ .multiple ∧ s.kind ≠ .constraint ∧ s.kind ≠ .regex := by
      intro s h
      refine ⟨fun hk => ?_, hs.kinds d d1 q0 d4 s (List.mem_of_mem_take h)⟩
      obtain ⟨l, r, e⟩ := List.append_of_mem h
      have := hs.stars d d1 q0 d4 l s (r ++ q0.segments.drop k) (by rw [← List.cons_append, ← List.append_assoc, ← e, List.take_append_drop]) hk
      have := congrArg List.length this
      simp only [List.length_append, List.length_drop, List.length_nil] at this
      omega
    obtain ⟨c, c1, c2⟩ := hfrom b b1 (b2.trans d2) b3 b4
    refine hno c c1 (by rw [c2]; exact alike_describes hn b5 hd) ?_
    have := congrArg (List.map Prod.fst) b5
    rw [c2]
    simpa [Function.comp_def] using this
  · exact h e he (hm.trans d2.symm) p hp hc

theorem no_traps {es : List Route} (hs : SimpleRoutes x ci es) (ht : NoTraps x other ci es) {method : Str} {us : List Str} {e : Route} (he : e ∈ es)
    (hm : toUpper other e.method = toUpper other method) {p : Pattern} (hp : parsePattern x ci e.pat = .ok p) :
    ¬ Hidden x ci (patternsFor x other ci es method) us p.segments :=
  no_traps_of hs ht (fun q hq => by
    obtain ⟨d, d1, d2, -, q0, d4, rfl⟩ := mem_patternsFor hq
    exact ⟨d, d1, d2, q0, d4, rfl⟩) (fun d d1 d2 q0 d4 => ⟨_, patternsFor_mem d1 d2 d4, rfl⟩) he hm hp

/-- C18 for simple routes without traps: every request that a route of its method describes runs the handler of such a route. -/
theorem c18_simple_partial (hl : FoldLaws x.eqFold) {es : List Route} {r : Router} (hr : Built x other sortSiblings ci es r) (hs : SimpleRoutes x ci es) (ht : NoTraps x other ci es)
    (behave : Nat → Behaviour) (method path : Str) {buf : List USeg} (hb : buf.length = 19) (hlen : path.length ≤ 65535) (hf : Fits path)
    (hus : ci = true → ∀ u ∈ segmentsOf path, Ascii u) {e : Route} (he : e ∈ es) (hm : toUpper other e.method = toUpper other method) {p : Pattern}
    (hp : parsePattern x ci e.pat = .ok p) (hd : Describes x ci p.segments (segmentsOf path)) :
    ∃ f, ∀ g, f ≤ g → ∃ d ∈ es, toUpper other d.method = toUpper other method ∧ (∃ q, parsePattern x ci d.pat = .ok q ∧ Describes x ci q.segments (segmentsOf path)) ∧
      ∃ rest, serveHTTP x other r behave method path buf g = some (.ran d.handler :: rest) := by
  obtain ⟨f, hx⟩ := c26_simple_partial (other := other) hl hr hs behave method path hb hlen hf hus
  refine ⟨f, fun g hg => ?_⟩
  rcases hx g hg with ⟨-, h⟩ | ⟨d, d1, d2, d3, rest, h, -⟩
  · exact absurd (h e he hm p hp hd) (no_traps hs ht he hm hp)
  · exact ⟨d, d1, d2, d3, rest, h⟩

/-- C19 for simple routes without traps: the handler that runs is that of the most specific among all routes of the method that describe the request. -/
theorem c19_simple_partial (hl : FoldLaws x.eqFold) {es : List Route} {r : Router} (hr : Built x other sortSiblings ci es r) (hs : SimpleRoutes x ci es) (ht : NoTraps x other ci es)
    (behave : Nat → Behaviour) (method path : Str) {buf : List USeg} (hb : buf.length = 19) (hlen : path.length ≤ 65535) (hf : Fits path)
    (hus : ci = true → ∀ u ∈ segmentsOf path, Ascii u) {fuel h : Nat} {rest : List Event} (hran : serveHTTP x other r behave method path buf fuel = some (.ran h :: rest)) :
    ∃ e ∈ es, e.handler = h ∧ toUpper other e.method = toUpper other method ∧ ∃ p, parsePattern x ci e.pat = .ok p ∧ Describes x ci p.segments (segmentsOf path) ∧
      ∀ d ∈ es, toUpper other d.method = toUpper other method → ∀ q, parsePattern x ci d.pat = .ok q → Describes x ci q.segments (segmentsOf path) →
        MoreSpecific (p.segments.map (·.kind)) (q.segments.map (·.kind)) := by
  obtain ⟨e, e1, e2, e3, p, e4, e5, e6⟩ := c19_handled_partial hl hr behave method path hb hlen hf (simple_orderly hs method hus) hran
  exact ⟨e, e1, e2, e3, p, e4, e5, fun d hd hdm q hq hdq => e6 d hd hdm q hq hdq (no_traps hs ht hd hdm hq)⟩

/-- C23 for simple routes: a request that ran a handler still runs one when routes are added, if all of them together are without traps. -/
theorem c23_simple_partial (hl : FoldLaws x.eqFold) {es new : List Route} {r r' : Router} (hr : Built x other sortSiblings ci es r)
    (hr' : Built x other sortSiblings ci (new ++ es) r') (hs : SimpleRoutes x ci (new ++ es)) (ht : NoTraps x other ci (new ++ es))
    (behave : Nat → Behaviour) (method path : Str) {buf buf' : List USeg} (hb : buf.length = 19) (hb' : buf'.length = 19) (hlen : path.length ≤ 65535) (hf : Fits path)
    (hus : ci = true → ∀ u ∈ segmentsOf path, Ascii u) {fuel h : Nat} {rest : List Event} (hran : serveHTTP x other r behave method path buf fuel = some (.ran h :: rest)) :
    ∃ f, ∀ g, f ≤ g → ∃ d ∈ new ++ es, toUpper other d.method = toUpper other method ∧ ∃ rest', serveHTTP x other r' behave method path buf' g = some (.ran d.handler :: rest') := by
  have hs0 : SimpleRoutes x ci es := ⟨by have := hs.few; simp at this; omega, fun e he => hs.short e (by simp [he]), fun e he => hs.kinds e (by simp [he]),
    fun e he => hs.stars e (by simp [he]), fun hc e he => hs.ascii hc e (by simp [he])⟩
  obtain ⟨e, e1, -, e3, p, e4, e5, -⟩ := c19_handled_partial hl hr behave method path hb hlen hf (simple_orderly hs0 method hus) hran
  obtain ⟨f, hx⟩ := c18_simple_partial hl hr' hs ht behave method path hb' hlen hf hus (e := e) (by simp [e1]) e3 e4 e5
  refine ⟨f, fun g hg => ?_⟩
  obtain ⟨d, d1, d2, -, d4⟩ := hx g hg
  exact ⟨d, d1, d2, d4⟩

theorem root_fits : Fits b!"/" := fits_of_peak _ (by decide)

/-- C17 for simple routes: every request, of however many segments, is answered, and nothing crashes but the handler that runs. -/
theorem c17_simple_partial (hl : FoldLaws x.eqFold) {es : List Route} {r : Router} (hr : Built x other sortSiblings ci es r) (hs : SimpleRoutes x ci es) (behave : Nat → Behaviour)
    (method path : Str) {buf : List USeg} (hb : buf.length = 19) (hlen : path.length ≤ 65535) (hus : ci = true → ∀ u ∈ segmentsOf path, Ascii u) :
    ∃ f evs, ∀ g, f ≤ g → serveHTTP x other r behave method path buf g = some evs ∧
      (.panic ∈ evs → ∃ h rest, evs = .ran h :: rest ∧ (behave h = .panics ∨ behave h = .noResponse)) := by
  have fit : ∀ path, path.length ≤ 65535 → Fits path → (ci = true → ∀ u ∈ segmentsOf path, Ascii u) → ∃ f, ∀ g, f ≤ g → ∃ evs, serveHTTP x other r behave method path buf g = some evs ∧
      (.panic ∈ evs → ∃ h rest, evs = .ran h :: rest ∧ (behave h = .panics ∨ behave h = .noResponse)) := by
    intro path hlen hf hus
    obtain ⟨f, hx⟩ := c26_simple_partial (other := other) hl hr hs behave method path hb hlen hf hus
    refine ⟨f, fun g hg => ?_⟩
    rcases hx g hg with ⟨h, -⟩ | ⟨d, -, -, -, rest, h, h'⟩
    · exact ⟨_, h, fun hp => by simp at hp⟩
    · exact ⟨_, h, fun hp => ⟨_, _, rfl, h'.1 (by simpa using hp)⟩⟩
  by_cases hf : Fits path
  · obtain ⟨f, hx⟩ := fit path hlen hf hus
    obtain ⟨f2, evs, hy⟩ := c20_handled_partial (other := other) hl hr hr (List.Perm.refl _) behave method path hb hb hlen hf (simple_orderly hs method hus)
    refine ⟨max f f2, evs, fun g hg => ⟨(hy g (by omega)).1, ?_⟩⟩
    obtain ⟨evs', h1, h2⟩ := hx g (by omega)
    rw [(hy g (by omega)).1, Option.some.injEq] at h1
    exact h1 ▸ h2
  · obtain ⟨f, hx⟩ := fit b!"/" (by decide) root_fits (fun _ u hu => by cases hu)
    obtain ⟨f2, evs, hy⟩ := c12_exact x other r behave method path hb hf
    refine ⟨max f f2, evs, fun g hg => ⟨(hy g (by omega)).1, ?_⟩⟩
    obtain ⟨evs', h1, h2⟩ := hx g (by omega)
    rw [(hy g (by omega)).2, Option.some.injEq] at h1
    exact h1 ▸ h2

/-- C20 for simple routes: in whatever order they are registered, every request, of however many segments, is answered alike. -/
theorem c20_simple_partial (hl : FoldLaws x.eqFold) {es es' : List Route} {r r' : Router} (hr : Built x other sortSiblings ci es r) (hr' : Built x other sortSiblings ci es' r')
    (hperm : es.Perm es') (hs : SimpleRoutes x ci es) (behave : Nat → Behaviour) (method path : Str) {buf buf' : List USeg} (hb : buf.length = 19) (hb' : buf'.length = 19)
    (hlen : path.length ≤ 65535) (hus : ci = true → ∀ u ∈ segmentsOf path, Ascii u) :
    ∃ f evs, ∀ g, f ≤ g → serveHTTP x other r behave method path buf g = some evs ∧ serveHTTP x other r' behave method path buf' g = some evs := by
  by_cases hf : Fits path
  · exact c20_handled_partial hl hr hr' hperm behave method path hb hb' hlen hf (simple_orderly hs method hus)
  · obtain ⟨f, evs, h1⟩ := c12_exact x other r behave method path hb hf
    obtain ⟨f', evs', h2⟩ := c12_exact x other r' behave method path hb' hf
    obtain ⟨f3, evs3, h3⟩ := c20_handled_partial (other := other) hl hr hr' hperm behave method b!"/" hb hb' (by decide) root_fits (simple_orderly hs method (fun _ u hu => by cases hu))
    refine ⟨max f (max f' f3), evs3, fun g hg => ?_⟩
    have a := h1 g (by omega)
    have b := h2 g (by omega)
    have c := h3 g (by omega)
    exact ⟨by rw [a.1, ← a.2, c.1], by rw [b.1, ← b.2, c.2]⟩

def siteRoutes : List Route := [⟨b!"GET", b!"/static/**", 1⟩, ⟨b!"GET", b!"/a/*", 2⟩, ⟨b!"GET", b!"/{z}/b", 3⟩, ⟨b!"GET", b!"/", 4⟩]

theorem siteRoutes_simple : SimpleRoutes plainExt false siteRoutes := by
  have hk : ∀ p ∈ patternsFor plainExt id false siteRoutes b!"GET",
      (pieces p.raw).length ≤ 19 ∧ (∀ s ∈ p.segments, s.kind ≠ .constraint ∧ s.kind ≠ .regex) ∧ ∀ s ∈ p.segments.dropLast, s.kind ≠ .multiple := by decide +kernel
  have hg : ∀ e ∈ siteRoutes, toUpper id e.method = toUpper id b!"GET" := by decide +kernel
  have h : ∀ e ∈ siteRoutes, ∀ p, parsePattern plainExt false e.pat = .ok p →
      (pieces p.raw).length ≤ 19 ∧ (∀ s ∈ p.segments, s.kind ≠ .constraint ∧ s.kind ≠ .regex) ∧ ∀ s ∈ p.segments.dropLast, s.kind ≠ .multiple :=
    fun e he p hp => hk { p with attachment := e.handler } (patternsFor_mem he (hg e he) hp)
  refine ⟨by decide, fun e he p hp => (h e he p hp).1, fun e he p hp => (h e he p hp).2.1, fun e he p hp a s b e' hk' => ?_, fun hc => by cases hc⟩
  cases b with
  | nil => rfl
  | cons t b => exact absurd hk' ((h e he p hp).2.2 s (by rw [e', List.dropLast_append_of_ne_nil (by simp)]; simp))

/-- A site with assets, a wildcard segment and a variable, registered in two orders: every request is answered alike, and `/static/css/a` by the assets. -/
example : ∃ r r', Built plainExt id sortSiblings false siteRoutes r ∧ Built plainExt id sortSiblings false siteRoutes.reverse r' ∧
    (∃ fuel, serveHTTP plainExt id r (fun _ => .responds false) b!"GET" b!"/static/css/a" freshBuf fuel = some [.ran 1, .wrote 1]) ∧
    ∀ behave method path, path.length ≤ 65535 →
      (∃ f evs, ∀ g, f ≤ g → serveHTTP plainExt id r behave method path freshBuf g = some evs ∧ serveHTTP plainExt id r' behave method path freshBuf g = some evs) ∧
      (Fits path → ∃ f, ∀ g, f ≤ g → serveHTTP plainExt id r behave method path freshBuf g = some [.status 404] ∨
        ∃ h rest, serveHTTP plainExt id r behave method path freshBuf g = some (.ran h :: rest)) ∧
      ((∀ h, behave h = .fails) → ∃ f evs, ∀ g, f ≤ g → serveHTTP plainExt id r behave method path freshBuf g = some evs ∧ .panic ∉ evs) := by
  obtain ⟨r, h1, h2⟩ := serve0_spec (l := siteRoutes.map fun e => (e.pat, e.handler)) (behave := fun _ => .responds false) (path := b!"/static/css/a") (fuel := 40)
    (evs := [.ran 1, .wrote 1]) (by decide +kernel)
  obtain ⟨r', h1', -⟩ := serve0_spec (l := siteRoutes.reverse.map fun e => (e.pat, e.handler)) (behave := fun _ => .responds false) (path := b!"/static/css/a") (fuel := 40)
    (evs := [.ran 1, .wrote 1]) (by decide +kernel)
  refine ⟨r, r', h1, h1', ⟨40, h2⟩, fun behave method path hlen => ⟨?_, fun hf => ?_, fun hb => ?_⟩⟩
  · exact c20_simple_partial plainExt_laws h1 h1' (List.reverse_perm _).symm siteRoutes_simple behave method path (by decide) (by decide) hlen (fun hc => by cases hc)
  · obtain ⟨f, hx⟩ := c26_simple_partial plainExt_laws h1 siteRoutes_simple behave method path (buf := freshBuf) (by decide) hlen hf (fun hc => by cases hc)
    refine ⟨f, fun g hg => ?_⟩
    rcases hx g hg with ⟨h, -⟩ | ⟨d, -, -, -, rest, h, -⟩
    · exact .inl h
    · exact .inr ⟨_, rest, h⟩
  · obtain ⟨f, evs, hx⟩ := c17_simple_partial plainExt_laws h1 siteRoutes_simple behave method path (buf := freshBuf) (by decide) hlen (fun hc => by cases hc)
    refine ⟨f, evs, fun g hg => ⟨(hx g hg).1, fun hp => ?_⟩⟩
    obtain ⟨h, rest, -, h3 | h3⟩ := (hx g hg).2 hp <;> rw [hb] at h3 <;> cases h3

def shopRoutes : List Route := [⟨b!"GET", b!"/shop", 1⟩, ⟨b!"GET", b!"/shop/{item}", 2⟩, ⟨b!"GET", b!"/shop/{item}/reviews", 3⟩, ⟨b!"GET", b!"/**", 4⟩]

theorem shopRoutes_simple : SimpleRoutes plainExt false shopRoutes ∧ NoTraps plainExt id false shopRoutes := by
  have hg : ∀ e ∈ shopRoutes, toUpper id e.method = toUpper id b!"GET" := by decide +kernel
  have h : ∀ e ∈ shopRoutes, ∀ p, parsePattern plainExt false e.pat = .ok p →
      (pieces p.raw).length ≤ 19 ∧ (∀ s ∈ p.segments, s.kind ≠ .constraint ∧ s.kind ≠ .regex) ∧ ∀ s ∈ p.segments.dropLast, s.kind ≠ .multiple :=
    fun e he p hp => (by decide +kernel : ∀ p ∈ patternsFor plainExt id false shopRoutes b!"GET",
      (pieces p.raw).length ≤ 19 ∧ (∀ s ∈ p.segments, s.kind ≠ .constraint ∧ s.kind ≠ .regex) ∧ ∀ s ∈ p.segments.dropLast, s.kind ≠ .multiple)
      { p with attachment := e.handler } (patternsFor_mem he (hg e he) hp)
  have hs : SimpleRoutes plainExt false shopRoutes := by
    refine ⟨by decide, fun e he p hp => (h e he p hp).1, fun e he p hp => (h e he p hp).2.1, fun e he p hp a s b e' hk' => ?_, fun hc => by cases hc⟩
    cases b with
    | nil => rfl
    | cons t b => exact absurd hk' ((h e he p hp).2.2 s (by rw [e', List.dropLast_append_of_ne_nil (by simp)]; simp))
  have key : ∀ p ∈ patternsFor plainExt id false shopRoutes b!"GET", ∀ k, k < p.segments.length → 0 < k →
      ∃ q ∈ patternsFor plainExt id false shopRoutes b!"GET", (q.segments.map fun s => (s.kind, if s.kind = .literal then s.val else [])) =
        (p.segments.take k).map fun s => (s.kind, if s.kind = .literal then s.val else []) := by decide +kernel
  have ht : NoTraps plainExt id false shopRoutes := by
    intro e he p hp k k0 k1
    obtain ⟨q, hq, e1⟩ := key { p with attachment := e.handler } (patternsFor_mem he (hg e he) hp) k k1 k0
    obtain ⟨d, d1, d2, -, q0, d4, rfl⟩ := mem_patternsFor hq
    exact .inl ⟨d, d1, d2.trans (hg e he).symm, q0, d4, e1⟩
  exact ⟨hs, ht⟩

/-- A shop with a page for everything else: every beginning of a pattern is registered, so that every request for a page runs a handler, such as `/shop/tea/reviews/5` that of
everything else. -/
example : ∃ r, Built plainExt id sortSiblings false shopRoutes r ∧
    (∃ fuel, serveHTTP plainExt id r (fun _ => .responds false) b!"GET" b!"/shop/tea/reviews/5" freshBuf fuel = some [.ran 4, .wrote 4]) ∧
    ∀ behave path, path.length ≤ 65535 → Fits path → segmentsOf path ≠ [] →
      ∃ f, ∀ g, f ≤ g → ∃ d ∈ shopRoutes, ∃ rest, serveHTTP plainExt id r behave b!"GET" path freshBuf g = some (.ran d.handler :: rest) := by
  obtain ⟨r, h1, h2⟩ := serve0_spec (l := shopRoutes.map fun e => (e.pat, e.handler)) (behave := fun _ => .responds false) (path := b!"/shop/tea/reviews/5") (fuel := 60)
    (evs := [.ran 4, .wrote 4]) (by decide +kernel)
  refine ⟨r, h1, ⟨60, h2⟩, fun behave path hlen hf hne => ?_⟩
  obtain ⟨hs, ht⟩ := shopRoutes_simple
  obtain ⟨p, hp, s, hps, hsk⟩ : ∃ p, parsePattern plainExt false b!"/**" = .ok p ∧ ∃ s, p.segments = [s] ∧ s.kind = .multiple := by
    obtain ⟨p, h1, h2, h3⟩ : ∃ p ∈ patternsFor plainExt id false [⟨b!"GET", b!"/**", 4⟩] b!"GET", p.segments.length = 1 ∧ ∀ s ∈ p.segments, s.kind = .multiple := by decide +kernel
    obtain ⟨d, d1, -, -, q0, d4, rfl⟩ := mem_patternsFor h1
    simp only [List.mem_singleton] at d1
    subst d1
    obtain ⟨s, hs⟩ := List.length_eq_one_iff.1 h2
    exact ⟨q0, d4, s, hs, h3 s (by rw [hs]; simp)⟩
  obtain ⟨f, hx⟩ := c18_simple_partial plainExt_laws h1 hs ht behave b!"GET" path (buf := freshBuf) (by decide) hlen hf (fun hc => by cases hc)
    (e := ⟨b!"GET", b!"/**", 4⟩) (by simp [shopRoutes]) rfl hp (by rw [hps, describes_star hsk]; exact ⟨segmentsOf path, [], by simp, fun _ => hne, describes_nil.2 rfl⟩)
  refine ⟨f, fun g hg => ?_⟩
  obtain ⟨d, d1, -, -, rest, h⟩ := hx g hg
  exact ⟨d, d1, rest, h⟩

/-- The page for everything else alone, and with the rest of the shop: whatever ran a handler still does, and the most specific one. -/
example : ∃ r r', Built plainExt id sortSiblings false [⟨b!"GET", b!"/**", 4⟩] r ∧ Built plainExt id sortSiblings false shopRoutes r' ∧
    (∃ fuel, serveHTTP plainExt id r (fun _ => .responds false) b!"GET" b!"/shop/tea" freshBuf fuel = some [.ran 4, .wrote 4]) ∧
    (∃ fuel, serveHTTP plainExt id r' (fun _ => .responds false) b!"GET" b!"/shop/tea" freshBuf fuel = some [.ran 2, .wrote 2]) ∧
    (∀ behave path fuel h rest, path.length ≤ 65535 → Fits path → serveHTTP plainExt id r behave b!"GET" path freshBuf fuel = some (.ran h :: rest) →
      ∃ f, ∀ g, f ≤ g → ∃ h' rest', serveHTTP plainExt id r' behave b!"GET" path freshBuf g = some (.ran h' :: rest')) ∧
    ∀ behave path fuel h rest, path.length ≤ 65535 → Fits path → serveHTTP plainExt id r' behave b!"GET" path freshBuf fuel = some (.ran h :: rest) →
      ∃ e ∈ shopRoutes, e.handler = h ∧ ∃ p, parsePattern plainExt false e.pat = .ok p ∧ ∀ d ∈ shopRoutes, toUpper id d.method = toUpper id b!"GET" →
        ∀ q, parsePattern plainExt false d.pat = .ok q → Describes plainExt false q.segments (segmentsOf path) → MoreSpecific (p.segments.map (·.kind)) (q.segments.map (·.kind)) := by
  obtain ⟨r, h1, h2⟩ := serve0_spec (l := [(b!"/**", 4)]) (behave := fun _ => .responds false) (path := b!"/shop/tea") (fuel := 60) (evs := [.ran 4, .wrote 4]) (by decide +kernel)
  obtain ⟨r', h1', h2'⟩ := serve0_spec (l := shopRoutes.map fun e => (e.pat, e.handler)) (behave := fun _ => .responds false) (path := b!"/shop/tea") (fuel := 60)
    (evs := [.ran 2, .wrote 2]) (by decide +kernel)
  obtain ⟨hs, ht⟩ := shopRoutes_simple
  refine ⟨r, r', h1, h1', ⟨60, h2⟩, ⟨60, h2'⟩, fun behave path fuel h rest hlen hf hran => ?_, fun behave path fuel h rest hlen hf hran => ?_⟩
  · obtain ⟨f, hx⟩ := c23_simple_partial (es := [⟨b!"GET", b!"/**", 4⟩]) (new := shopRoutes.dropLast) plainExt_laws h1 h1' hs ht behave b!"GET" path (buf := freshBuf) (buf' := freshBuf)
      (by decide) (by decide) hlen hf (fun hc => by cases hc) hran
    refine ⟨f, fun g hg => ?_⟩
    obtain ⟨d, -, -, rest', h⟩ := hx g hg
    exact ⟨_, rest', h⟩
  · obtain ⟨e, e1, e2, -, p, e4, -, e6⟩ := c19_simple_partial (es := shopRoutes) plainExt_laws h1' hs ht behave b!"GET" path (buf := freshBuf) (by decide) hlen hf (fun hc => by cases hc) hran
    exact ⟨e, e1, e2, p, e4, e6⟩

end Gofre.Props
