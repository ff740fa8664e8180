import Verif.Spec.Example
import Verif.Props.Exact
import Verif.Props.Hidden
import Verif.Props.Readme

/-!
# The routes of the example server

Property C112.
-/

namespace Gofre.Props
open Gofre.Path Gofre.Spec Gofre.Mux

/-- The patterns of the example server, the last registered first. -/
def examplePats (x : Ext) : List Pattern := exampleRoutes.reverse.map fun r => patOf x false r.path r.handler.num

/-- Patterns without wildcards and constraints, `**` only last, at most 19 segments: every request
of which no beginning of a pattern is in the way is answered by the most specific pattern
describing it, or by none if none does. -/
theorem table_answer {x : Ext} (hl : FoldLaws x.eqFold)
    {ps : List Pattern} {m : Matcher} (hr : Registered x false sortSiblings ps m) (hfew : ps.length < 65536) (hshort : ∀ p ∈ ps, (pieces p.raw).length ≤ 19)
    (hstars : ∀ p ∈ ps, StarsLast p.segments) (hbare : ∀ p ∈ ps, ∀ s ∈ p.segments, s.kind ≠ .regex ∧ s.kind ≠ .constraint)
    {path : Str} {buf : List USeg} (hb : buf.length = 19) (hlen : path.length ≤ 65535) (hf : Fits path)
    (hpre : ∀ p ∈ ps, Describes x false p.segments (segmentsOf path) →
      ∀ q ∈ ps, ∀ k, 0 < k → k < q.segments.length → ¬ Describes x false (q.segments.take k) (segmentsOf path)) :
    ∃ f, ∀ g, f ≤ g →
      (∃ p labels, lookup x false m path buf g = some (.found p labels) ∧ p ∈ ps ∧ Describes x false p.segments (segmentsOf path) ∧
        ∀ q ∈ ps, Describes x false q.segments (segmentsOf path) → MoreSpecific (kinds p.segments) (kinds q.segments)) ∨
      (lookup x false m path buf g = some .none ∧ ∀ q ∈ ps, ¬ Describes x false q.segments (segmentsOf path)) := by
  obtain ⟨f, hfu⟩ := lookup_eq x false m path buf hb hlen
  rw [requestOf_fits hf] at hfu
  have h19 : (segmentsOf path).length ≤ 19 := hf _ (List.prefix_refl _)
  refine ⟨f, fun g hg => ?_⟩
  rw [hfu g hg]
  have hplain : ∀ p ∈ ps, ∀ s ∈ p.segments, Plain false s := fun p hp s hs =>
    ⟨fun h => absurd h (hbare p hp s hs).2, fun _ h => by cases h⟩
  have hnot : ∀ p ∈ ps, Describes x false p.segments (segmentsOf path) → ¬ Hidden x false ps (segmentsOf path) p.segments := by
    rintro p hp hd ⟨q, hq, k, h1, h2, h3, _⟩
    exact hpre p hp hd q hq k h1 h2 h3
  by_cases hne : segmentsOf path = []
  · rw [hne]
    have hh := holds sortSiblings_perm hr
    cases hm : m.root with
    | some p =>
      obtain ⟨g1, g2⟩ := hh.root p hm
      refine .inl ⟨p, [], by simp [answer, hm], g1, by rw [g2]; exact describes_nil.2 rfl, ?_⟩
      intro q hq hd
      rw [describes_root (hstars q hq) hd]
      intro i k k' _ _ h
      simp at h
    | none =>
      refine .inr ⟨by simp [answer, hm, tryC_nil, Res.toM], ?_⟩
      intro q hq hd
      rw [hh.rootAdded q hq (describes_root (hstars q hq) hd)] at hm
      cases hm
  · rcases answer_exact hl sortSiblings_perm sortSiblings_sorted hr hplain hfew hstars hshort (us := segmentsOf path)
      (fun p hp _ _ s hs _ _ hk => absurd hk (hbare p hp s hs).1) (List.pairwise_iff_forall_sublist.2 fun hpq s hs _ _ hk => absurd hk (hbare _ (hpq.subset (by simp)) s hs).2) h19
      ⟨fun p hp s hs hk => absurd hk (hbare p hp s hs).1, by simp, by simp⟩ hne with ⟨p, ls, h1, h2, h3, _, h5⟩ | ⟨h1, h2⟩
    · exact .inl ⟨p, ls, by rw [h1], h2, h3, fun q hq hd => h5 q hq hd (hnot q hq hd)⟩
    · exact .inr ⟨by rw [h1], fun q hq hd => hnot q hq hd (h2 q hq hd)⟩

/-- The text of each route. -/
def exText : ExRoute → Str
  | .assets => b!"/assets/**" | .index => b!"/" | .initiate => b!"/oauth/initiate" | .authorize => b!"/oauth/authorize/{providerName}"
  | .textVar => b!"/text/{plain}" | .textStar => b!"/text/*" | .textPlain => b!"/text/plain" | .textHtml => b!"/text/html"
  | .json => b!"/json/{user}/{id}" | .download => b!"/download" | .tmpl => b!"/tmpl/{tmplName}" | .sse => b!"/sse"
  | .security => b!"/security/authorize/{permission}"

/-- The pattern of each route. -/
def exPat (x : Ext) (k : ExRoute) : Pattern := patOf x false (exText k) k.num

theorem examplePats_eq (x : Ext) : examplePats x =
    [.security, .sse, .tmpl, .download, .json, .textHtml, .textPlain, .textStar, .textVar, .authorize, .initiate, .index, .assets].map (exPat x) := rfl

theorem mem_examplePats {x : Ext} {p : Pattern} : p ∈ examplePats x ↔ ∃ k, p = exPat x k := by
  rw [examplePats_eq]
  simp only [List.map_cons, List.map_nil, List.mem_cons, List.not_mem_nil, or_false]
  constructor
  · rintro (h | h | h | h | h | h | h | h | h | h | h | h | h) <;> exact ⟨_, h⟩
  · rintro ⟨k, rfl⟩; cases k <;> simp

/-- A literal segment. -/
def lit (v : Str) : Segment := { val := v, kind := .literal }

/-- The segments of each route. -/
def exSegs : ExRoute → List Segment
  | .assets => [lit b!"assets", { val := b!"**", kind := .multiple }]
  | .index => []
  | .initiate => [lit b!"oauth", lit b!"initiate"]
  | .authorize => [lit b!"oauth", lit b!"authorize", { val := b!"{providerName}", kind := .capture, varName := b!"providerName" }]
  | .textVar => [lit b!"text", { val := b!"{plain}", kind := .capture, varName := b!"plain" }]
  | .textStar => [lit b!"text", { val := b!"*", kind := .single }]
  | .textPlain => [lit b!"text", lit b!"plain"]
  | .textHtml => [lit b!"text", lit b!"html"]
  | .json => [lit b!"json", { val := b!"{user}", kind := .capture, varName := b!"user" }, { val := b!"{id}", kind := .capture, varName := b!"id" }]
  | .download => [lit b!"download"]
  | .tmpl => [lit b!"tmpl", { val := b!"{tmplName}", kind := .capture, varName := b!"tmplName" }]
  | .sse => [lit b!"sse"]
  | .security => [lit b!"security", lit b!"authorize", { val := b!"{permission}", kind := .capture, varName := b!"permission" }]

theorem exPat_segments (x : Ext) (k : ExRoute) : (exPat x k).segments = exSegs k := by cases k <;> rfl

theorem describes_lit {x : Ext} {v : Str} {ss : List Segment} {us : List Str} :
    Describes x false (lit v :: ss) us ↔ ∃ vs, us = v :: vs ∧ Describes x false ss vs := by
  rw [describes_one (by simp [lit])]
  constructor
  · rintro ⟨u, vs, h1, h2, h3⟩
    rw [lit, fit_literal] at h2
    subst h2
    exact ⟨vs, h1, h3⟩
  · rintro ⟨vs, h1, h3⟩
    exact ⟨v, vs, h1, fit_literal.2 rfl, h3⟩

theorem describes_any {x : Ext} {s : Segment} (hs : s.kind = .capture ∨ s.kind = .single) {ss : List Segment} {us : List Str} :
    Describes x false (s :: ss) us ↔ ∃ u vs, us = u :: vs ∧ Describes x false ss vs := by
  rw [describes_one (by rcases hs with h | h <;> rw [h] <;> decide)]
  constructor
  · rintro ⟨u, vs, h1, _, h3⟩
    exact ⟨u, vs, h1, h3⟩
  · rintro ⟨u, vs, h1, h3⟩
    exact ⟨u, vs, h1, by rcases hs with h | h <;> simp [Fit, h], h3⟩

theorem describes_rest {x : Ext} {us : List Str} : Describes x false [{ val := b!"**", kind := .multiple }] us ↔ us ≠ [] := by
  rw [describes_star rfl]
  constructor
  · rintro ⟨vs, ws, rfl, h1, _⟩ h0
    exact h1 rfl (List.append_eq_nil_iff.1 h0).1
  · intro h0
    exact ⟨us, [], by simp, fun _ => h0, describes_nil.2 rfl⟩

/-- The route described by the answer describes the request. -/
theorem example_described (x : Ext) {us : List Str} {k : ExRoute} (h : exampleAnswer us = some k) : Describes x false (exSegs k) us := by
  unfold exampleAnswer at h
  split at h
  · cases h; exact describes_nil.2 rfl
  · rename_i a
    split at h
    · rename_i e; cases h; subst e; exact describes_lit.2 ⟨_, rfl, describes_nil.2 rfl⟩
    · split at h
      · rename_i e; cases h; subst e; exact describes_lit.2 ⟨_, rfl, describes_nil.2 rfl⟩
      · cases h
  · rename_i a b
    split at h
    · rename_i e; cases h; subst e; exact describes_lit.2 ⟨_, rfl, describes_rest.2 (by simp)⟩
    · split at h
      · rename_i e
        subst e
        split at h
        · rename_i e; cases h; subst e; exact describes_lit.2 ⟨_, rfl, describes_lit.2 ⟨_, rfl, describes_nil.2 rfl⟩⟩
        · split at h
          · rename_i e; cases h; subst e; exact describes_lit.2 ⟨_, rfl, describes_lit.2 ⟨_, rfl, describes_nil.2 rfl⟩⟩
          · cases h; exact describes_lit.2 ⟨_, rfl, (describes_any (.inl rfl)).2 ⟨_, _, rfl, describes_nil.2 rfl⟩⟩
      · split at h
        · rename_i e; cases h; subst e; exact describes_lit.2 ⟨_, rfl, (describes_any (.inl rfl)).2 ⟨_, _, rfl, describes_nil.2 rfl⟩⟩
        · split at h
          · rename_i e; cases h; rw [e.1, e.2]; exact describes_lit.2 ⟨_, rfl, describes_lit.2 ⟨_, rfl, describes_nil.2 rfl⟩⟩
          · cases h
  · rename_i a b c
    split at h
    · rename_i e; cases h; subst e; exact describes_lit.2 ⟨_, rfl, describes_rest.2 (by simp)⟩
    · split at h
      · rename_i e; cases h; subst e
        exact describes_lit.2 ⟨_, rfl, (describes_any (.inl rfl)).2 ⟨_, _, rfl, (describes_any (.inl rfl)).2 ⟨_, _, rfl, describes_nil.2 rfl⟩⟩⟩
      · split at h
        · rename_i e; cases h; rw [e.1, e.2]
          exact describes_lit.2 ⟨_, rfl, describes_lit.2 ⟨_, rfl, (describes_any (.inl rfl)).2 ⟨_, _, rfl, describes_nil.2 rfl⟩⟩⟩
        · split at h
          · rename_i e; cases h; rw [e.1, e.2]
            exact describes_lit.2 ⟨_, rfl, describes_lit.2 ⟨_, rfl, (describes_any (.inl rfl)).2 ⟨_, _, rfl, describes_nil.2 rfl⟩⟩⟩
          · cases h
  · rename_i a us h1 h2 h3
    split at h
    · rename_i e; cases h; subst e
      refine describes_lit.2 ⟨_, rfl, describes_rest.2 ?_⟩
      rintro rfl
      exact h1 rfl
    · cases h

/-- A route describing a request is its answer, or one of the routes below `/text` that are less
specific than the answer. -/
theorem example_only (x : Ext) {us : List Str} {k : ExRoute} (h : Describes x false (exSegs k) us) :
    ∃ a, exampleAnswer us = some a ∧ (k = a ∨ ¬ MoreSpecific (kinds (exSegs k)) (kinds (exSegs a))) := by
  cases k with
  | assets =>
    obtain ⟨vs1, rfl, e1⟩ := describes_lit.1 h
    rw [describes_rest] at e1
    match vs1, e1 with
    | [_], _ => exact ⟨_, rfl, .inl rfl⟩
    | [_, _], _ => exact ⟨_, rfl, .inl rfl⟩
    | _ :: _ :: _ :: _, _ => exact ⟨_, rfl, .inl rfl⟩
  | index => rw [exSegs, describes_nil] at h; subst h; exact ⟨_, rfl, .inl rfl⟩
  | initiate =>
    obtain ⟨vs1, rfl, e1⟩ := describes_lit.1 h
    obtain ⟨vs2, rfl, e2⟩ := describes_lit.1 e1
    rw [describes_nil] at e2; subst e2
    exact ⟨_, rfl, .inl rfl⟩
  | authorize =>
    obtain ⟨vs1, rfl, e1⟩ := describes_lit.1 h
    obtain ⟨vs2, rfl, e2⟩ := describes_lit.1 e1
    obtain ⟨u3, vs3, rfl, e3⟩ := (describes_any (.inl rfl)).1 e2
    rw [describes_nil] at e3; subst e3
    exact ⟨_, rfl, .inl rfl⟩
  | textVar =>
    obtain ⟨vs1, rfl, e1⟩ := describes_lit.1 h
    obtain ⟨u2, vs2, rfl, e2⟩ := (describes_any (.inl rfl)).1 e1
    rw [describes_nil] at e2; subst e2
    refine ⟨_, rfl, ?_⟩
    split
    · exact .inr fun hm => absurd (hm 1 .capture .literal rfl rfl rfl) (by decide)
    · split
      · exact .inr fun hm => absurd (hm 1 .capture .literal rfl rfl rfl) (by decide)
      · exact .inl rfl
  | textStar =>
    obtain ⟨vs1, rfl, e1⟩ := describes_lit.1 h
    obtain ⟨u2, vs2, rfl, e2⟩ := (describes_any (.inr rfl)).1 e1
    rw [describes_nil] at e2; subst e2
    refine ⟨_, rfl, .inr ?_⟩
    split
    · exact fun hm => absurd (hm 1 .single .literal rfl rfl rfl) (by decide)
    · split
      · exact fun hm => absurd (hm 1 .single .literal rfl rfl rfl) (by decide)
      · exact fun hm => absurd (hm 1 .single .capture rfl rfl rfl) (by decide)
  | textPlain =>
    obtain ⟨vs1, rfl, e1⟩ := describes_lit.1 h
    obtain ⟨vs2, rfl, e2⟩ := describes_lit.1 e1
    rw [describes_nil] at e2; subst e2
    exact ⟨_, rfl, .inl rfl⟩
  | textHtml =>
    obtain ⟨vs1, rfl, e1⟩ := describes_lit.1 h
    obtain ⟨vs2, rfl, e2⟩ := describes_lit.1 e1
    rw [describes_nil] at e2; subst e2
    exact ⟨_, rfl, .inl rfl⟩
  | json =>
    obtain ⟨vs1, rfl, e1⟩ := describes_lit.1 h
    obtain ⟨u2, vs2, rfl, e2⟩ := (describes_any (.inl rfl)).1 e1
    obtain ⟨u3, vs3, rfl, e3⟩ := (describes_any (.inl rfl)).1 e2
    rw [describes_nil] at e3; subst e3
    exact ⟨_, rfl, .inl rfl⟩
  | download =>
    obtain ⟨vs1, rfl, e1⟩ := describes_lit.1 h
    rw [describes_nil] at e1; subst e1
    exact ⟨_, rfl, .inl rfl⟩
  | tmpl =>
    obtain ⟨vs1, rfl, e1⟩ := describes_lit.1 h
    obtain ⟨u2, vs2, rfl, e2⟩ := (describes_any (.inl rfl)).1 e1
    rw [describes_nil] at e2; subst e2
    exact ⟨_, rfl, .inl rfl⟩
  | sse =>
    obtain ⟨vs1, rfl, e1⟩ := describes_lit.1 h
    rw [describes_nil] at e1; subst e1
    exact ⟨_, rfl, .inl rfl⟩
  | security =>
    obtain ⟨vs1, rfl, e1⟩ := describes_lit.1 h
    obtain ⟨vs2, rfl, e2⟩ := describes_lit.1 e1
    obtain ⟨u3, vs3, rfl, e3⟩ := (describes_any (.inl rfl)).1 e2
    rw [describes_nil] at e3; subst e3
    exact ⟨_, rfl, .inl rfl⟩

/-- A path that is the beginning of a route is not described by any. -/
theorem example_beginnings (x : Ext) {us : List Str} (q : ExRoute) (k : Nat) (h0 : 0 < k) (h1 : k < (exSegs q).length)
    (h : Describes x false ((exSegs q).take k) us) : exampleAnswer us = none := by
  have hk : k = 1 ∨ k = 2 := by
    have : (exSegs q).length ≤ 3 := by cases q <;> decide
    omega
  cases q with
  | index | download | sse => revert h1; simp only [exSegs, List.length_cons, List.length_nil]; omega
  | assets | initiate | textVar | textStar | textPlain | textHtml | tmpl =>
    rcases hk with rfl | rfl
    · obtain ⟨vs1, rfl, e1⟩ := describes_lit.1 h
      rw [List.take_zero, describes_nil] at e1; subst e1; rfl
    · simp [exSegs] at h1
  | authorize | security =>
    rcases hk with rfl | rfl
    · obtain ⟨vs1, rfl, e1⟩ := describes_lit.1 h
      rw [List.take_zero, describes_nil] at e1; subst e1; rfl
    · obtain ⟨vs1, rfl, e1⟩ := describes_lit.1 h
      obtain ⟨vs2, rfl, e2⟩ := describes_lit.1 e1
      rw [List.take_zero, describes_nil] at e2; subst e2; rfl
  | json =>
    rcases hk with rfl | rfl
    · obtain ⟨vs1, rfl, e1⟩ := describes_lit.1 h
      rw [List.take_zero, describes_nil] at e1; subst e1; rfl
    · obtain ⟨vs1, rfl, e1⟩ := describes_lit.1 h
      obtain ⟨u2, vs2, rfl, e2⟩ := (describes_any (.inl rfl)).1 e1
      rw [List.take_zero, describes_nil] at e2; subst e2; rfl

theorem example_segments_kinds (k : ExRoute) : (exSegs k).all (fun s => decide (s.kind ≠ .regex) && decide (s.kind ≠ .constraint)) = true := by
  cases k <;> decide

/-- C112: every GET of the example server whose path has at most 19 segments at a time is answered
by the handler its path is meant for, and by none if it is meant for none, in whatever order the
routes were registered.

Missing: longer paths, see C12. -/
theorem c112_routes_partial {x : Ext} (hl : FoldLaws x.eqFold)
    {ps : List Pattern} {m : Matcher} (hps : ps.Perm (examplePats x)) (hr : Registered x false sortSiblings ps m)
    {path : Str} {buf : List USeg} (hb : buf.length = 19) (hlen : path.length ≤ 65535) (hf : Fits path) :
    ∃ f, ∀ g, f ≤ g →
      match exampleAnswer (segmentsOf path) with
      | none => lookup x false m path buf g = some .none
      | some k => ∃ p labels, lookup x false m path buf g = some (.found p labels) ∧ p.attachment = k.num := by
  have hmem : ∀ p, p ∈ ps ↔ ∃ k, p = exPat x k := fun p => (hps.mem_iff (a := p)).trans mem_examplePats
  have hd : ∀ {k : ExRoute}, Describes x false (exPat x k).segments (segmentsOf path) ↔ Describes x false (exSegs k) (segmentsOf path) := by
    intro k; rw [exPat_segments]
  have hkinds : ∀ p ∈ ps, ∀ s ∈ p.segments, s.kind ≠ .regex ∧ s.kind ≠ .constraint := by
    intro p hp s hs
    obtain ⟨k, rfl⟩ := (hmem p).1 hp
    rw [exPat_segments] at hs
    have := List.all_eq_true.1 (example_segments_kinds k) s hs
    simpa using this
  obtain ⟨f, hfu⟩ := table_answer hl hr (by rw [hps.length_eq]; exact (by decide : 13 < 65536))
    (fun p hp => by obtain ⟨k, rfl⟩ := (hmem p).1 hp; cases k <;> exact Nat.le_of_ble_eq_true rfl)
    (fun p hp => by
      obtain ⟨k, rfl⟩ := (hmem p).1 hp
      rw [exPat_segments]
      exact starsLast_of_B (by cases k <;> decide))
    hkinds hb hlen hf
    (by
      intro p hp hdp q hq k h0 h1 h2
      obtain ⟨a, rfl⟩ := (hmem p).1 hp
      obtain ⟨b, rfl⟩ := (hmem q).1 hq
      rw [exPat_segments] at hdp h1 h2
      obtain ⟨c, hc, _⟩ := example_only x hdp
      rw [example_beginnings x b k h0 h1 h2] at hc
      cases hc)
  refine ⟨f, fun g hg => ?_⟩
  rcases hfu g hg with ⟨p, labels, h1, h2, h3, h4⟩ | ⟨h1, h2⟩
  · obtain ⟨k, rfl⟩ := (hmem p).1 h2
    obtain ⟨a, ha, hka⟩ := example_only x (hd.1 h3)
    rw [ha]
    rcases hka with rfl | hka
    · exact ⟨_, labels, h1, by cases k <;> rfl⟩
    · have := h4 (exPat x a) ((hmem _).2 ⟨a, rfl⟩) (hd.2 (example_described x ha))
      rw [exPat_segments, exPat_segments] at this
      exact absurd this hka
  · cases ha : exampleAnswer (segmentsOf path) with
    | none => exact h1
    | some k => exact absurd (hd.2 (example_described x ha)) (h2 (exPat x k) ((hmem _).2 ⟨k, rfl⟩))

theorem num_inj {a b : ExRoute} (h : a.num = b.num) : a = b := by
  cases a <;> cases b <;> first | rfl | (revert h; decide)

/-- The parts of a pattern without `**` are the segments of the request, one each. -/
theorem layout_each {x : Ext} {ss : List Segment} {us : List Str} {bs : List (List Str)} (hn : ∀ s ∈ ss, s.kind ≠ .multiple)
    (h : Layout x false ss us bs) : bs = us.map ([·]) := by
  obtain ⟨h1, h2, h3⟩ := h
  clear h3
  subst h2
  induction h1 with
  | nil => rfl
  | @cons s b _ bs hr _ ih =>
    obtain ⟨u, rfl⟩ := List.length_eq_one_iff.1 (hr.1 (hn s (by simp)))
    rw [List.flatten_cons, List.map_append, ← ih fun t ht => hn t (by simp [ht])]
    rfl

/-- C112: the variables of a route are the segments of the path they stand for. -/
theorem c112_variables_partial {x : Ext} (hl : FoldLaws x.eqFold)
    {ps : List Pattern} {m : Matcher} (hps : ps.Perm (examplePats x)) (hr : Registered x false sortSiblings ps m)
    {path : Str} {buf : List USeg} (hb : buf.length = 19) (hlen : path.length ≤ 65535) (hf : Fits path)
    {fuel : Nat} {p : Pattern} {labels : List MT} (h : lookup x false m path buf fuel = some (.found p labels))
    {k : ExRoute} (hk : p.attachment = k.num) :
    ∃ segs, parseURLPath path buf = some segs ∧
      ∀ v ∈ exampleVars k, ∃ u, (segmentsOf path)[v.2]? = some u ∧ pathVarText path p labels segs v.1 = some u := by
  have hmem : ∀ p, p ∈ ps ↔ ∃ k, p = exPat x k := fun p => (hps.mem_iff (a := p)).trans mem_examplePats
  have hplain : ∀ p ∈ ps, ∀ s ∈ p.segments, Plain false s := by
    intro p hp s hs
    obtain ⟨k, rfl⟩ := (hmem p).1 hp
    rw [exPat_segments] at hs
    have := List.all_eq_true.1 (example_segments_kinds k) s hs
    simp at this
    exact ⟨fun h => absurd h this.2, fun _ h => by cases h⟩
  obtain ⟨hp, hd⟩ := c14_described_partial hl hr hplain hb hlen hf h
  obtain ⟨a, rfl⟩ := (hmem p).1 hp
  have hak : a = k := num_inj (by rw [← hk]; cases a <;> rfl)
  subst hak
  obtain ⟨segs, bs, h1, h2, h3⟩ := c15_variables_partial hl hr hplain hb hlen hf h
    (by cases a <;> exact Nat.lt_of_lt_of_le (m := 20) (Nat.le_of_ble_eq_true rfl) (by omega))
  refine ⟨segs, h1, ?_⟩
  rw [exPat_segments] at h2 hd
  intro v hv
  rw [h3, exPat_segments]
  have hlay : a ≠ .assets → bs = (segmentsOf path).map ([·]) := by
    intro ha
    refine layout_each ?_ h2
    cases a <;> first | exact absurd rfl ha | decide
  have hl3 : a ≠ .assets → (segmentsOf path).length = (exSegs a).length := by
    intro ha
    refine describes_length ?_ hd
    cases a <;> first | exact absurd rfl ha | decide
  cases a with
  | assets | index | initiate | textStar | textPlain | textHtml | download | sse => cases hv
  | authorize | security =>
    rw [hlay (by decide)]
    have := hl3 (by decide)
    match segmentsOf path, this with
    | [u1, u2, u3], _ => simp only [exampleVars, List.mem_singleton] at hv; subst hv; exact ⟨u3, rfl, rfl⟩
  | textVar | tmpl =>
    rw [hlay (by decide)]
    have := hl3 (by decide)
    match segmentsOf path, this with
    | [u1, u2], _ => simp only [exampleVars, List.mem_singleton] at hv; subst hv; exact ⟨u2, rfl, rfl⟩
  | json =>
    rw [hlay (by decide)]
    have := hl3 (by decide)
    match segmentsOf path, this with
    | [u1, u2, u3], _ =>
      simp only [exampleVars, List.mem_cons, List.not_mem_nil, or_false] at hv
      rcases hv with rfl | rfl
      · exact ⟨u2, rfl, rfl⟩
      · exact ⟨u3, rfl, rfl⟩

/-- C112, the paths left: one with more than 19 segments at a time is answered by the handler of
`/`, whatever it is meant for, in whatever order the routes were registered. -/
theorem c112_overlong {x : Ext}
    {ps : List Pattern} {m : Matcher} (hps : ps.Perm (examplePats x)) (hr : Registered x false sortSiblings ps m)
    {path : Str} {buf : List USeg} (hb : buf.length = 19) (hf : ¬ Fits path) :
    ∃ f p, (∀ g, f ≤ g → lookup x false m path buf g = some (.found p [])) ∧ p.attachment = ExRoute.index.num := by
  have h0 : parseURLPath path buf = some [] := by
    rcases parse_at path buf hb with ⟨h, _⟩ | ⟨_, h⟩
    · exact absurd h hf
    · exact h
  have hroot : m.root = some (exPat x .index) :=
    (holds sortSiblings_perm hr).rootAdded _ ((hps.mem_iff).2 (mem_examplePats.2 ⟨_, rfl⟩)) (exPat_segments x .index)
  obtain ⟨f, hfu⟩ := matchM_eq (acc := matchUrl x false path) matchUrl_star m [] (by simp)
  refine ⟨f, exPat x .index, fun g hg => ?_, rfl⟩
  simp only [lookup, h0, hfu g hg]
  simp [answer, hroot]

/-- C112: all of them are routes for GET requests. -/
theorem c112_methods : exampleRoutes.length = 13 ∧ ∀ r ∈ exampleRoutes, r.method = b!"GET" := by decide +kernel

/-- C112 fails for long paths: a file deep below the assets is answered by the start page. -/
theorem c112_violated : ∃ path : Str, exampleAnswer (segmentsOf path) = some .assets ∧
    ∀ {x : Ext} {ps : List Pattern} {m : Matcher} {buf : List USeg}, ps.Perm (examplePats x) →
      Registered x false sortSiblings ps m → buf.length = 19 →
      ∃ f p, (∀ g, f ≤ g → lookup x false m path buf g = some (.found p [])) ∧ p.attachment = ExRoute.index.num :=
  ⟨b!"/assets/1/2/3/4/5/6/7/8/9/10/11/12/13/14/15/16/17/18/19", by decide +kernel, fun hps hr hb =>
    c112_overlong hps hr hb fun h => absurd (h _ (List.prefix_refl _)) (by decide +kernel)⟩

/-- C112, exactly: a path is answered as it is meant if and only if it has at most 19 segments at a time, or is meant for the start page. -/
theorem c112_exact {x : Ext} (hl : FoldLaws x.eqFold)
    {ps : List Pattern} {m : Matcher} (hps : ps.Perm (examplePats x)) (hr : Registered x false sortSiblings ps m)
    {path : Str} {buf : List USeg} (hb : buf.length = 19) (hlen : path.length ≤ 65535) :
    ∃ f, ∀ g, f ≤ g →
      ((match exampleAnswer (segmentsOf path) with
        | none => lookup x false m path buf g = some .none
        | some k => ∃ p labels, lookup x false m path buf g = some (.found p labels) ∧ p.attachment = k.num) ↔
      Fits path ∨ exampleAnswer (segmentsOf path) = some .index) := by
  by_cases hf : Fits path
  · obtain ⟨f, h⟩ := c112_routes_partial hl hps hr hb hlen hf
    exact ⟨f, fun g hg => ⟨fun _ => .inl hf, fun _ => h g hg⟩⟩
  · obtain ⟨f, p, h, hp⟩ := c112_overlong hps hr hb hf
    refine ⟨f, fun g hg => ?_⟩
    rw [h g hg]
    cases he : exampleAnswer (segmentsOf path) with
    | none => simp [hf]
    | some k =>
      simp only [hf, false_or, Option.some.injEq, MRes.found.injEq]
      constructor
      · rintro ⟨q, l, ⟨rfl, -⟩, hq⟩
        rw [hp] at hq
        revert hq
        cases k <;> decide
      · rintro rfl
        exact ⟨p, [], ⟨rfl, rfl⟩, hp⟩

/-- The example server starts: its routes are accepted in the order of the program. -/
example : ∃ m, Registered plainExt false sortSiblings (examplePats plainExt) m ∧
    Fits b!"/text//html" ∧ (∃ p l, lookup plainExt false m b!"/text//html" freshBuf 20 = some (.found p l) ∧ p.attachment = ExRoute.textHtml.num) ∧
    lookup plainExt false m b!"/text/html/x" freshBuf 20 = some .none := by
  obtain ⟨ps, m, h1, h2, h3⟩ := checked_spec (x := plainExt) (ci := false) (l := exampleRoutes.reverse.map fun r => (r.path, r.handler.num))
    (f := fun ps => ps == examplePats plainExt) (by decide +kernel)
  rw [beq_iff_eq] at h2
  subst h2
  exact ⟨m, h1, fits_of_peak _ (by decide), ⟨exPat plainExt .textHtml, [.literal, .literal], (h3 _ _ _).symm.trans (by decide +kernel), rfl⟩,
    (h3 _ _ _).symm.trans (by decide +kernel)⟩

end Gofre.Props
