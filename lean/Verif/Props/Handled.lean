import Verif.Spec.Orderly
import Verif.Props.Hidden
import Verif.Props.ShadowServed

/-! # C18, C19, C20, C23 at the router -/

namespace Gofre.Props
open Gofre.Path Gofre.Spec

variable {x : Ext} {other : Str → Str} {ci : Bool}

theorem filterMap_all2 {α β : Type} {R : α → β → Prop} {f : α → Option β} (hf : ∀ a b, R a b → f a = some b) {l : List α} {l' : List β} (h : All2 R l l') :
    l.filterMap f = l' := by
  induction h with
  | nil => rfl
  | cons h1 _ ih => rw [List.filterMap_cons, hf _ _ h1, ih]

theorem lookup_empty {path : Str} {buf : List USeg} (hb : buf.length = 19) {g : Nat} {res : MRes} (h : lookup x ci {} path buf g = some res) : res = .none := by
  obtain ⟨segs, -, f, hf⟩ := lookup_any x ci {} path buf hb
  have h := (lookup_fuel h (Nat.le_max_right f g)).symm.trans (hf _ (Nat.le_max_left f g))
  rw [Option.some.injEq] at h
  rw [h]
  cases segs <;> simp [answer, tryC, Res.toM]

/-- A router answers a request from the patterns of the method. -/
theorem serve_patterns {es : List Route} {r : Router} (hr : Built x other sortSiblings ci es r) (method : Str) :
    ∃ m, Registered x ci sortSiblings (patternsFor x other ci es method) m ∧
      (∀ behave path buf g, buf.length = 19 → ∀ res, lookup x ci m path buf g = some res → serveHTTP x other r behave method path buf g = some (finish behave res)) ∧
      ∀ behave path buf g, buf.length = 19 → ∀ h rest, serveHTTP x other r behave method path buf g = some (.ran h :: rest) →
        ∃ p labels, lookup x ci m path buf g = some (.found p labels) ∧ p.attachment = h := by
  obtain ⟨hci, hm⟩ := built_matchers hr
  cases hmat : r.matchers (toUpper other method) with
  | none =>
    have h0 := (hm _).1 hmat
    have hp : patternsFor x other ci es method = [] := by
      have : es.filter (fun e => toUpper other e.method = toUpper other method) = [] := h0
      simp [patternsFor, this]
    refine ⟨{}, by rw [hp]; exact .new, ?_, ?_⟩
    · intro behave path buf g hb res h
      rw [lookup_empty hb h, serve_answer behave method path hb, hmat]
      rfl
    · intro behave path buf g hb h rest hs
      rw [serve_answer behave method path hb, hmat] at hs
      simp at hs
  | some m =>
    obtain ⟨ps, h1, h2⟩ := (hm _).2 m hmat
    have hp : patternsFor x other ci es method = ps := by
      refine filterMap_all2 (fun e p he => ?_) h2
      obtain ⟨p0, h3, rfl⟩ := he
      rw [h3]
    refine ⟨m, by rw [hp]; exact h1, ?_, ?_⟩
    · intro behave path buf g hb res h
      rw [serve_answer behave method path hb, hmat, hci]
      simp only [h, Option.map_some]
    · intro behave path buf g hb h rest hs
      rw [serve_answer behave method path hb, hmat, hci] at hs
      simp only [Option.map_eq_some_iff] at hs
      obtain ⟨res, h3, h4⟩ := hs
      cases res with
      | panic => simp [finish] at h4
      | none => simp [finish] at h4
      | found p labels =>
        simp only [finish, List.cons.injEq, Event.ran.injEq] at h4
        exact ⟨p, labels, h3, h4.1⟩

theorem mem_patternsFor {es : List Route} {method : Str} {p : Pattern} (h : p ∈ patternsFor x other ci es method) :
    ∃ e ∈ es, toUpper other e.method = toUpper other method ∧ p.attachment = e.handler ∧ ∃ p0, parsePattern x ci e.pat = .ok p0 ∧ p = { p0 with attachment := e.handler } := by
  unfold patternsFor at h
  obtain ⟨e, he, h⟩ := List.mem_filterMap.1 h
  have hee : e ∈ es ∧ toUpper other e.method = toUpper other method := by simpa using he
  cases hp : parsePattern x ci e.pat with
  | ok p0 => rw [hp] at h; simp only [Option.some.injEq] at h; exact ⟨e, hee.1, hee.2, by rw [← h], p0, hp, h.symm⟩
  | error => rw [hp] at h; cases h
  | panic => rw [hp] at h; cases h
  | hangs => rw [hp] at h; cases h

theorem patternsFor_mem {es : List Route} {method : Str} {e : Route} (he : e ∈ es) (hm : toUpper other e.method = toUpper other method) {p : Pattern}
    (hp : parsePattern x ci e.pat = .ok p) : { p with attachment := e.handler } ∈ patternsFor x other ci es method := by
  unfold patternsFor
  exact List.mem_filterMap.2 ⟨e, by simp [he, hm], by rw [hp]⟩

theorem orderly_no_crash {ps : List Pattern} {m : Matcher} (hr : Registered x ci sortSiblings ps m) {path : Str} (ho : Orderly x ci ps (segmentsOf path))
    {buf : List USeg} (hb : buf.length = 19) (hlen : path.length ≤ 65535) (g : Nat) : lookup x ci m path buf g ≠ some .panic := by
  refine c17_no_crash_partial hr (fun p hp => ?_) hb hlen (fun q hq s hs hk u hu => (ho.faithful.wild q hq s hs hk u hu).1) g
  by_cases h : ∀ s ∈ p.segments, s.kind ≠ .multiple
  · exact .inr (.inl h)
  · have : ∃ s ∈ p.segments, s.kind = .multiple := by
      apply Classical.byContradiction
      intro hn
      exact h fun s hs hk => hn ⟨s, hs, hk⟩
    obtain ⟨s, hs, hk⟩ := this
    obtain ⟨a, b, e⟩ := List.append_of_mem hs
    have hb := ho.stars p hp a s b e hk
    have hc := registered_counts hr hp (ho.short p hp)
    rw [List.length_map] at hc
    exact .inr (.inr ⟨hc, s, by rw [e, hb]; simp, hk⟩)

/-- C18 at the router: a request described by a route of its method runs the handler of a route of the method, when the patterns are orderly, unless every pattern
describing it is hidden. -/
theorem c18_handled_partial (hl : FoldLaws x.eqFold) {es : List Route} {r : Router} (hr : Built x other sortSiblings ci es r) (behave : Nat → Behaviour) (method path : Str)
    {buf : List USeg} (hb : buf.length = 19) (hlen : path.length ≤ 65535) (hf : Fits path) (ho : Orderly x ci (patternsFor x other ci es method) (segmentsOf path))
    {e : Route} (he : e ∈ es) (hm : toUpper other e.method = toUpper other method) {p : Pattern} (hp : parsePattern x ci e.pat = .ok p)
    (hd : Describes x ci p.segments (segmentsOf path)) (hh : ¬ Hidden x ci (patternsFor x other ci es method) (segmentsOf path) p.segments) :
    ∃ f, ∀ g, f ≤ g → ∃ d ∈ es, toUpper other d.method = toUpper other method ∧ ∃ rest, serveHTTP x other r behave method path buf g = some (.ran d.handler :: rest) := by
  obtain ⟨m, h1, h2, -⟩ := serve_patterns hr method
  have hpm := patternsFor_mem he hm hp
  obtain ⟨f, hx⟩ := c18_exact_partial hl h1 ho.plain ho.few ho.short ho.stars hb hlen hf ho.faithful ho.settled ho.unrivalled
  refine ⟨f, fun g hg => ?_⟩
  obtain ⟨hne, hiff⟩ := hx g hg
  cases hlk : lookup x ci m path buf g with
  | none => exact absurd hlk hne
  | some res =>
    have hsv := h2 behave path buf g hb res hlk
    cases res with
    | none => exact absurd (hiff.1 hlk _ hpm hd) hh
    | panic => exact absurd hlk (orderly_no_crash h1 ho hb hlen g)
    | found q labels =>
      obtain ⟨d, hd1, hd2, hd3, -⟩ := mem_patternsFor (lookup_registered h1 hb hlk)
      exact ⟨d, hd1, hd2, _, by rw [hsv, finish, hd3]⟩

/-- C19 at the router: the handler that runs is that of the most specific route among those of the method that describe the request and are not hidden, when the
patterns are orderly. -/
theorem c19_handled_partial (hl : FoldLaws x.eqFold) {es : List Route} {r : Router} (hr : Built x other sortSiblings ci es r) (behave : Nat → Behaviour) (method path : Str)
    {buf : List USeg} (hb : buf.length = 19) (hlen : path.length ≤ 65535) (hf : Fits path) (ho : Orderly x ci (patternsFor x other ci es method) (segmentsOf path))
    {fuel h : Nat} {rest : List Event} (hs : serveHTTP x other r behave method path buf fuel = some (.ran h :: rest)) :
    ∃ e ∈ es, e.handler = h ∧ toUpper other e.method = toUpper other method ∧ ∃ p, parsePattern x ci e.pat = .ok p ∧ Describes x ci p.segments (segmentsOf path) ∧
      ∀ d ∈ es, toUpper other d.method = toUpper other method → ∀ q, parsePattern x ci d.pat = .ok q → Describes x ci q.segments (segmentsOf path) →
        ¬ Hidden x ci (patternsFor x other ci es method) (segmentsOf path) q.segments → MoreSpecific (p.segments.map (·.kind)) (q.segments.map (·.kind)) := by
  obtain ⟨m, h1, -, h4⟩ := serve_patterns hr method
  obtain ⟨p, labels, hlk, hat⟩ := h4 behave path buf fuel hb h rest hs
  obtain ⟨a1, a2, -, a4⟩ := c19_exact_partial hl h1 ho.plain ho.few ho.short ho.stars hb hlen hf ho.faithful ho.settled ho.unrivalled hlk
  obtain ⟨e, e1, e2, e3, p0, e4, rfl⟩ := mem_patternsFor a1
  exact ⟨e, e1, hat, e2, p0, e4, a2, fun d hd hdm q hq hdq hnh => a4 { q with attachment := d.handler } (patternsFor_mem hd hdm hq) hdq hnh⟩

/-- C20 at the router: routers to which the same routes were registered in different orders answer a request alike, when the patterns of the method are orderly. -/
theorem c20_handled_partial (hl : FoldLaws x.eqFold) {es es' : List Route} {r r' : Router} (hr : Built x other sortSiblings ci es r) (hr' : Built x other sortSiblings ci es' r')
    (hperm : es.Perm es') (behave : Nat → Behaviour) (method path : Str) {buf buf' : List USeg} (hb : buf.length = 19) (hb' : buf'.length = 19) (hlen : path.length ≤ 65535)
    (hf : Fits path) (ho : Orderly x ci (patternsFor x other ci es method) (segmentsOf path)) :
    ∃ f evs, ∀ g, f ≤ g → serveHTTP x other r behave method path buf g = some evs ∧ serveHTTP x other r' behave method path buf' g = some evs := by
  obtain ⟨m, h1, h2, -⟩ := serve_patterns hr method
  obtain ⟨m', h1', h2', -⟩ := serve_patterns hr' method
  obtain ⟨f, hx⟩ := c20_beginnings_partial hl h1 h1' ((hperm.filter _).filterMap _) ho.plain ho.few ho.short ho.stars hb hb' hlen hf ho.faithful ho.settled ho.unrivalled
  cases hlk : lookup x ci m path buf f with
  | none => exact absurd hlk (hx f (Nat.le_refl _)).2
  | some res =>
    refine ⟨f, finish behave res, fun g hg => ?_⟩
    have e := lookup_fuel hlk hg
    exact ⟨h2 behave path buf g hb res e, h2' behave path buf' g hb' res (by rw [← (hx g hg).1, e])⟩

theorem orderly_less {p : Pattern} {ps : List Pattern} {us : List Str} (h : Orderly x ci (p :: ps) us) : Orderly x ci ps us where
  plain q hq := h.plain q (by simp [hq])
  few := by have := h.few; simp at this; omega
  short q hq := h.short q (by simp [hq])
  stars q hq := h.stars q (by simp [hq])
  faithful := ⟨fun q hq => h.faithful.wild q (by simp [hq]), fun hc q hq => h.faithful.pats hc q (by simp [hq]), h.faithful.request⟩
  settled := fun q hq q' hq' => h.settled q (by simp [hq]) q' (by simp [hq'])
  unrivalled := (List.pairwise_cons.1 h.unrivalled).2

/-- C23 at the router: a request that ran a handler still runs one when a further route is registered, unless that route is of the method and a proper beginning of its
pattern describes the request, with the kinds of the pattern of the old handler up to the last, where it is more specific; then it gets 404.  The patterns are orderly. -/
theorem c23_handled_partial (hl : FoldLaws x.eqFold) {es : List Route} {new : Route} {r r' : Router} (hr : Built x other sortSiblings ci es r)
    (hr' : Built x other sortSiblings ci (new :: es) r') (behave : Nat → Behaviour) (method path : Str) {buf buf' : List USeg} (hb : buf.length = 19) (hb' : buf'.length = 19)
    (hlen : path.length ≤ 65535) (hf : Fits path) (ho : Orderly x ci (patternsFor x other ci (new :: es) method) (segmentsOf path))
    {fuel h : Nat} {rest : List Event} (hs : serveHTTP x other r behave method path buf fuel = some (.ran h :: rest)) :
    ∃ f, ∀ g, f ≤ g →
      (∃ d ∈ new :: es, toUpper other d.method = toUpper other method ∧ ∃ rest', serveHTTP x other r' behave method path buf' g = some (.ran d.handler :: rest')) ∨
      (serveHTTP x other r' behave method path buf' g = some [.status 404] ∧ toUpper other new.method = toUpper other method ∧
        ∃ n p, parsePattern x ci new.pat = .ok n ∧ (∃ e ∈ es, e.handler = h ∧ toUpper other e.method = toUpper other method ∧ ∃ p0, parsePattern x ci e.pat = .ok p0 ∧ p0.segments = p) ∧
          ∃ k, 0 < k ∧ k < n.segments.length ∧ Describes x ci (n.segments.take k) (segmentsOf path) ∧
            ∃ ks a b, kinds (n.segments.take k) = ks ++ [a] ∧ kinds p = ks ++ [b] ∧ rank a < rank b) := by
  obtain ⟨m, h1, -, h4⟩ := serve_patterns hr method
  obtain ⟨m', h1', h2', -⟩ := serve_patterns hr' method
  obtain ⟨p, labels, hlk, hat⟩ := h4 behave path buf fuel hb h rest hs
  obtain ⟨f, hx⟩ := c18_exact_partial hl h1' ho.plain ho.few ho.short ho.stars hb' hlen hf ho.faithful ho.settled ho.unrivalled
  obtain ⟨e, e1, e2, e3, p0, e4, e5⟩ := mem_patternsFor (lookup_registered h1 hb hlk)
  have hps : patternsFor x other ci (new :: es) method = patternsFor x other ci es method ∨
      toUpper other new.method = toUpper other method ∧ ∃ n, parsePattern x ci new.pat = .ok n ∧
        patternsFor x other ci (new :: es) method = { n with attachment := new.handler } :: patternsFor x other ci es method := by
    unfold patternsFor
    by_cases hm : toUpper other new.method = toUpper other method
    · rw [List.filter_cons_of_pos (by simpa using hm), List.filterMap_cons]
      cases hn : parsePattern x ci new.pat with
      | ok n => exact .inr ⟨hm, n, rfl, rfl⟩
      | error => exact .inl rfl
      | panic => exact .inl rfl
      | hangs => exact .inl rfl
    · rw [List.filter_cons_of_neg (by simpa using hm)]
      exact .inl rfl
  refine ⟨f, fun g hg => ?_⟩
  cases hlk' : lookup x ci m' path buf' g with
  | none => exact absurd hlk' (hx g hg).1
  | some res =>
    have hsv := h2' behave path buf' g hb' res hlk'
    cases res with
    | panic => exact absurd hlk' (orderly_no_crash h1' ho hb' hlen g)
    | found q labels' =>
      obtain ⟨d, hd1, hd2, hd3, -⟩ := mem_patternsFor (lookup_registered h1' hb' hlk')
      exact .inl ⟨d, hd1, hd2, _, by rw [hsv, finish, hd3]⟩
    | none =>
      right
      rcases hps with hps | ⟨hm, n, hn, hps⟩
      · exfalso
        rw [hps] at h1' ho
        obtain ⟨f2, hx2⟩ := c20_beginnings_partial hl h1 h1' (List.Perm.refl _) ho.plain ho.few ho.short ho.stars hb hb' hlen hf ho.faithful ho.settled ho.unrivalled
        have a := lookup_fuel hlk (Nat.le_max_left fuel (max f2 g))
        have b := lookup_fuel hlk' (Nat.le_trans (Nat.le_max_right f2 g) (Nat.le_max_right fuel (max f2 g)))
        have c := (hx2 (max fuel (max f2 g)) (by omega)).1
        rw [a, b] at c
        cases c
      · rw [hps] at h1' ho
        obtain ⟨k, k0, k1, k2, k3⟩ := c23_culprit_partial hl h1 h1' ho.plain ho.few ho.short ho.stars hb hb' hlen hf ho.faithful ho.settled ho.unrivalled hlk hlk'
        exact ⟨hsv, hm, n, p.segments, hn, ⟨e, e1, by rw [← e3, hat], e2, p0, e4, by rw [e5]⟩, k, k0, k1, k2, k3⟩

/-- Few and short patterns of literals and variables are orderly, for every request. -/
theorem orderly_simple {ps : List Pattern} (us : List Str) (hfew : ps.length < 65536) (hshort : ∀ p ∈ ps, (pieces p.raw).length ≤ 19)
    (h : ∀ p ∈ ps, ∀ s ∈ p.segments, s.kind = .literal ∨ s.kind = .capture) : Orderly x false ps us := by
  have no : ∀ p ∈ ps, ∀ s ∈ p.segments, s.kind ≠ .constraint ∧ s.kind ≠ .regex ∧ s.kind ≠ .multiple := by
    intro p hp s hs
    rcases h p hp s hs with e | e <;> rw [e] <;> decide
  exact {
    plain := fun p hp s hs => ⟨fun hk => absurd hk (no p hp s hs).1, fun hk => absurd hk (no p hp s hs).2.1⟩
    few := hfew
    short := hshort
    stars := fun p hp a s b e hk => absurd hk (no p hp s (by rw [e]; simp)).2.2
    faithful := ⟨fun p hp s hs hk => absurd hk (no p hp s hs).2.1, (fun h => by cases h), (fun h => by cases h)⟩
    settled := fun p hp _ _ s hs _ _ hk => absurd hk (no p hp s hs).2.1
    unrivalled := List.Pairwise.imp_of_mem (R := fun _ _ => True) (fun {p _} hp _ _ s hs _ _ hk => absurd hk (no p hp s hs).1) (List.pairwise_of_forall fun _ _ => trivial) }

def overlapping : List Route := [⟨b!"GET", b!"/{z}/b", 3⟩, ⟨b!"GET", b!"/a/{y}", 2⟩, ⟨b!"GET", b!"/a/b/x", 1⟩, ⟨b!"GET", b!"/", 4⟩]

/-- A further route beside overlapping ones: a request that ran a handler runs one, or gets 404. -/
example : ∃ r r', Built plainExt id sortSiblings false overlapping r ∧ Built plainExt id sortSiblings false (⟨b!"GET", b!"/a/c/x", 5⟩ :: overlapping) r' ∧
    (∃ fuel, serveHTTP plainExt id r (fun _ => .responds false) b!"GET" b!"/a/c" freshBuf fuel = some [.ran 2, .wrote 2]) ∧
    ∀ behave h rest fuel, serveHTTP plainExt id r behave b!"GET" b!"/a/c" freshBuf fuel = some (.ran h :: rest) → ∃ f, ∀ g, f ≤ g →
      (∃ d rest, serveHTTP plainExt id r' behave b!"GET" b!"/a/c" freshBuf g = some (.ran d :: rest)) ∨
      serveHTTP plainExt id r' behave b!"GET" b!"/a/c" freshBuf g = some [.status 404] := by
  obtain ⟨r, h1, h2⟩ := serve0_spec (l := overlapping.map fun e => (e.pat, e.handler)) (behave := fun _ => .responds false) (path := b!"/a/c") (fuel := 40)
    (evs := [.ran 2, .wrote 2]) (by decide +kernel)
  obtain ⟨r', h1', -⟩ := serve0_spec (l := (⟨b!"GET", b!"/a/c/x", 5⟩ :: overlapping).map fun e => (e.pat, e.handler)) (behave := fun _ => .responds false) (path := b!"/a/c")
    (fuel := 40) (evs := [.status 404]) (by decide +kernel)
  have hk : ∀ p ∈ patternsFor plainExt id false (⟨b!"GET", b!"/a/c/x", 5⟩ :: overlapping) b!"GET",
      (pieces p.raw).length ≤ 19 ∧ ∀ s ∈ p.segments, s.kind = .literal ∨ s.kind = .capture := by decide +kernel
  refine ⟨r, r', h1, h1', ⟨40, h2⟩, fun behave h rest fuel hs => ?_⟩
  obtain ⟨f, hx⟩ := c23_handled_partial plainExt_laws h1 h1' behave b!"GET" b!"/a/c" (buf := freshBuf) (buf' := freshBuf) (by decide) (by decide) (by decide) (fits_of_peak _ (by decide))
    (orderly_simple _ (by decide +kernel) (fun p hp => (hk p hp).1) (fun p hp => (hk p hp).2)) hs
  refine ⟨f, fun g hg => ?_⟩
  rcases hx g hg with ⟨d, -, -, rest', h⟩ | ⟨h, -⟩
  · exact .inl ⟨_, rest', h⟩
  · exact .inr h

/-- Routes that overlap, registered in two orders: every request of at most 65535 bytes whose segments fit is answered alike, and `/a/c` by `/a/{y}`. -/
example : ∃ r r', Built plainExt id sortSiblings false overlapping r ∧ Built plainExt id sortSiblings false overlapping.reverse r' ∧
    (∀ behave path, path.length ≤ 65535 → Fits path → ∃ f evs, ∀ g, f ≤ g →
      serveHTTP plainExt id r behave b!"GET" path freshBuf g = some evs ∧ serveHTTP plainExt id r' behave b!"GET" path freshBuf g = some evs) ∧
    (∀ behave h rest fuel, serveHTTP plainExt id r behave b!"GET" b!"/a/c" freshBuf fuel = some (.ran h :: rest) → ∃ e ∈ overlapping, e.handler = h ∧
      ∃ p, parsePattern plainExt false e.pat = .ok p ∧ Describes plainExt false p.segments (segmentsOf b!"/a/c")) ∧
    ∀ behave, ∃ f, ∀ g, f ≤ g → ∃ d ∈ overlapping, ∃ rest, serveHTTP plainExt id r behave b!"GET" b!"/a/c" freshBuf g = some (.ran d.handler :: rest) := by
  obtain ⟨r, h1, -⟩ := serve0_spec (l := overlapping.map fun e => (e.pat, e.handler)) (behave := fun _ => .responds false) (path := b!"/a/c") (fuel := 40)
    (evs := [.ran 2, .wrote 2]) (by decide +kernel)
  obtain ⟨r', h1', -⟩ := serve0_spec (l := overlapping.reverse.map fun e => (e.pat, e.handler)) (behave := fun _ => .responds false) (path := b!"/a/c") (fuel := 40)
    (evs := [.ran 2, .wrote 2]) (by decide +kernel)
  have hk : ∀ p ∈ patternsFor plainExt id false overlapping b!"GET", (pieces p.raw).length ≤ 19 ∧ ∀ s ∈ p.segments, s.kind = .literal ∨ s.kind = .capture := by decide +kernel
  have ho : ∀ us, Orderly plainExt false (patternsFor plainExt id false overlapping b!"GET") us := fun us =>
    orderly_simple us (by decide +kernel) (fun p hp => (hk p hp).1) (fun p hp => (hk p hp).2)
  refine ⟨r, r', h1, h1', ?_, ?_, ?_⟩
  · intro behave path hlen hf
    exact c20_handled_partial plainExt_laws h1 h1' (List.reverse_perm _).symm behave b!"GET" path (by decide) (by decide) hlen hf (ho _)
  · intro behave h rest fuel hs
    obtain ⟨e, e1, e2, -, p, e3, e4, -⟩ := c19_handled_partial plainExt_laws h1 behave b!"GET" b!"/a/c" (by decide) (by decide) (fits_of_peak _ (by decide)) (ho _) hs
    exact ⟨e, e1, e2, p, e3, e4⟩
  · intro behave
    have hseg : (patOf plainExt false b!"/a/{y}" 0).segments = [{ val := b!"a", kind := .literal }, { val := b!"{y}", kind := .capture, varName := b!"y" }] := by decide +kernel
    obtain ⟨f, hx⟩ := c18_handled_partial plainExt_laws h1 behave b!"GET" b!"/a/c" (buf := freshBuf) (by decide) (by decide) (fits_of_peak _ (by decide)) (ho _)
      (e := ⟨b!"GET", b!"/a/{y}", 2⟩) (by simp [overlapping]) rfl (p := patOf plainExt false b!"/a/{y}" 0) (by decide +kernel)
      (by
        rw [hseg]
        exact (describes_one (by decide)).2 ⟨b!"a", [b!"c"], by decide, .inl rfl, (describes_one (by decide)).2 ⟨b!"c", [], rfl, trivial, describes_nil.2 rfl⟩⟩)
      (by
        rintro ⟨q, hq, k, k0, k1, hd, -⟩
        have hlen : ∀ q ∈ patternsFor plainExt id false overlapping b!"GET", ∀ k, 0 < k → k < q.segments.length →
            q.segments.take k = [{ val := b!"{z}", kind := .capture, varName := b!"z" }] ∨ q.segments.take k = [{ val := b!"a", kind := .literal }] ∨
              q.segments.take k = [{ val := b!"a", kind := .literal }, { val := b!"b", kind := .literal }] := by
          have : ∀ q ∈ patternsFor plainExt id false overlapping b!"GET", ∀ k < q.segments.length, 0 < k →
            q.segments.take k = [{ val := b!"{z}", kind := .capture, varName := b!"z" }] ∨ q.segments.take k = [{ val := b!"a", kind := .literal }] ∨
              q.segments.take k = [{ val := b!"a", kind := .literal }, { val := b!"b", kind := .literal }] := by decide +kernel
          exact fun q hq k k0 k1 => this q hq k k1 k0
        have hus : segmentsOf b!"/a/c" = [b!"a", b!"c"] := by decide
        rw [hus] at hd
        rcases hlen q hq k k0 k1 with e | e | e <;> rw [e] at hd
        · obtain ⟨u, us, e1, -, h2⟩ := (describes_one (by decide)).1 hd
          cases e1
          exact absurd (describes_nil.1 h2) (by decide)
        · obtain ⟨u, us, e1, -, h2⟩ := (describes_one (by decide)).1 hd
          cases e1
          exact absurd (describes_nil.1 h2) (by decide)
        · obtain ⟨u, us, e1, -, h2⟩ := (describes_one (by decide)).1 hd
          cases e1
          obtain ⟨u, us, e1, h3, -⟩ := (describes_one (by decide)).1 h2
          cases e1
          simp [Fit] at h3)
    refine ⟨f, fun g hg => ?_⟩
    obtain ⟨d, d1, -, d2⟩ := hx g hg
    exact ⟨d, d1, d2⟩

end Gofre.Props
