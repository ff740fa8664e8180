import Verif.Spec.Readme
import Verif.Props.Stars
import Verif.Props.Hidden

/-!
# Theorems about the routes of the README

Properties C78 and C79.
-/

namespace Gofre.Props
open Gofre.Path Gofre.Spec

/-- A README pattern as registered for handler `h`. -/
def readmePat (x : Ext) (h : ReadmePattern → Nat) (k : ReadmePattern) : Pattern := patOf x false k.text (h k)

theorem readme_segments (x : Ext) (h : ReadmePattern → Nat) :
    (readmePat x h .lastName).segments = [{ val := b!"users", kind := .literal }, { val := b!"john", kind := .literal },
      { val := b!"{lastName}", kind := .capture, varName := b!"lastName" }] ∧
    (readmePat x h .johnDoe).segments = [{ val := b!"users", kind := .literal }, { val := b!"john", kind := .literal }, { val := b!"doe", kind := .literal }] ∧
    (readmePat x h .anyDoe).segments = [{ val := b!"users", kind := .literal }, { val := b!"*", kind := .single }, { val := b!"doe", kind := .literal }] ∧
    (readmePat x h .all).segments = [{ val := b!"users", kind := .literal }, { val := b!"**", kind := .multiple }] := by
  refine ⟨rfl, rfl, rfl, rfl⟩

theorem fit_literal {x : Ext} {v u : Str} : Fit x false { val := v, kind := .literal } u ↔ u = v := by simp [Fit]

theorem describes_two {x : Ext} {s t : Segment} (hs : s.kind ≠ .multiple) (ht : t.kind ≠ .multiple) {us : List Str} :
    Describes x false [s, t] us ↔ ∃ u v, us = [u, v] ∧ Fit x false s u ∧ Fit x false t v := by
  rw [describes_one hs]
  constructor
  · rintro ⟨u, vs, rfl, h1, h2⟩
    obtain ⟨v, ws, rfl, h3, h4⟩ := (describes_one ht).1 h2
    rw [describes_nil] at h4
    subst h4
    exact ⟨u, v, rfl, h1, h3⟩
  · rintro ⟨u, v, rfl, h1, h2⟩
    exact ⟨u, [v], rfl, h1, (describes_one ht).2 ⟨v, [], rfl, h2, describes_nil.2 rfl⟩⟩

/-- Which of the four patterns describe a request below `/users`. -/
theorem readme_describes (x : Ext) (h : ReadmePattern → Nat) (rest : List Str) :
    (Describes x false (readmePat x h .lastName).segments (b!"users" :: rest) ↔ ∃ w, rest = [b!"john", w]) ∧
    (Describes x false (readmePat x h .johnDoe).segments (b!"users" :: rest) ↔ rest = [b!"john", b!"doe"]) ∧
    (Describes x false (readmePat x h .anyDoe).segments (b!"users" :: rest) ↔ ∃ w, rest = [w, b!"doe"]) ∧
    (Describes x false (readmePat x h .all).segments (b!"users" :: rest) ↔ rest ≠ []) := by
  obtain ⟨e1, e2, e3, e4⟩ := readme_segments x h
  have head : ∀ ss : List Segment, Describes x false ({ val := b!"users", kind := .literal } :: ss) (b!"users" :: rest) ↔ Describes x false ss rest := by
    intro ss
    rw [describes_one (by decide)]
    constructor
    · rintro ⟨u, vs, h1, _, h2⟩; cases h1; exact h2
    · intro h; exact ⟨_, _, rfl, fit_literal.2 rfl, h⟩
  rw [e1, e2, e3, e4, head, head, head, head]
  refine ⟨?_, ?_, ?_, ?_⟩
  · rw [describes_two (by decide) (by decide)]
    constructor
    · rintro ⟨u, v, rfl, h1, _⟩; rw [fit_literal] at h1; subst h1; exact ⟨v, rfl⟩
    · rintro ⟨w, rfl⟩; exact ⟨_, _, rfl, fit_literal.2 rfl, trivial⟩
  · rw [describes_two (by decide) (by decide)]
    constructor
    · rintro ⟨u, v, rfl, h1, h2⟩; rw [fit_literal] at h1 h2; subst h1; subst h2; rfl
    · rintro rfl; exact ⟨_, _, rfl, fit_literal.2 rfl, fit_literal.2 rfl⟩
  · rw [describes_two (by decide) (by decide)]
    constructor
    · rintro ⟨u, v, rfl, _, h2⟩; rw [fit_literal] at h2; subst h2; exact ⟨u, rfl⟩
    · rintro ⟨w, rfl⟩; exact ⟨_, _, rfl, trivial, fit_literal.2 rfl⟩
  · rw [describes_star rfl]
    constructor
    · rintro ⟨vs, ws, rfl, h1, _⟩ h0
      exact h1 rfl (by
        have := congrArg List.length h0
        simp at this
        exact this.1)
    · intro h0; exact ⟨rest, [], by simp, fun _ => h0, describes_nil.2 rfl⟩

/-- The answer documented describes the request. -/
theorem readme_answer_describes (x : Ext) (h : ReadmePattern → Nat) {rest : List Str} (hne : rest ≠ []) :
    Describes x false (readmePat x h (readmeAnswer rest)).segments (b!"users" :: rest) := by
  obtain ⟨d1, d2, d3, d4⟩ := readme_describes x h rest
  unfold readmeAnswer
  split
  · rename_i h0; exact d2.2 h0
  · split
    · rename_i h0
      match rest, h0 with
      | [a, b], h0 => simp at h0; exact d1.2 ⟨b, by rw [h0]⟩
    · split
      · rename_i h0
        match rest, h0 with
        | [a, b], h0 => simp at h0; exact d3.2 ⟨a, by rw [h0]⟩
      · exact d4.2 hne

/-- Among the patterns describing the request, no other is as specific as the documented one. -/
theorem readme_answer_best (x : Ext) (h : ReadmePattern → Nat) {rest : List Str} (k : ReadmePattern)
    (hd : Describes x false (readmePat x h k).segments (b!"users" :: rest))
    (hm : MoreSpecific ((readmePat x h k).segments.map (·.kind)) ((readmePat x h (readmeAnswer rest)).segments.map (·.kind))) :
    k = readmeAnswer rest := by
  obtain ⟨d1, d2, d3, d4⟩ := readme_describes x h rest
  obtain ⟨e1, e2, e3, e4⟩ := readme_segments x h
  cases k with
  | johnDoe => rw [d2] at hd; simp [readmeAnswer, hd]
  | lastName =>
    obtain ⟨w, rfl⟩ := d1.1 hd
    by_cases hw : w = b!"doe"
    · subst hw
      rw [e1, show readmeAnswer [b!"john", b!"doe"] = .johnDoe from rfl, e2] at hm
      exact absurd (hm 2 .capture .literal rfl rfl rfl) (by decide)
    · simp [readmeAnswer, hw]
  | anyDoe =>
    obtain ⟨w, rfl⟩ := d3.1 hd
    by_cases hw : w = b!"john"
    · subst hw
      rw [e3, show readmeAnswer [b!"john", b!"doe"] = .johnDoe from rfl, e2] at hm
      exact absurd (hm 1 .single .literal rfl rfl rfl) (by decide)
    · simp [readmeAnswer, hw]
  | all =>
    cases ha : readmeAnswer rest with
    | all => rfl
    | johnDoe => rw [ha, e4, e2] at hm; exact absurd (hm 1 .multiple .literal rfl rfl rfl) (by decide)
    | lastName => rw [ha, e4, e1] at hm; exact absurd (hm 1 .multiple .literal rfl rfl rfl) (by decide)
    | anyDoe => rw [ha, e4, e3] at hm; exact absurd (hm 1 .multiple .single rfl rfl rfl) (by decide)

/-- What the four patterns are like. -/
theorem readme_facts (x : Ext) (h : ReadmePattern → Nat) {ps : List Pattern} (hps : ps.Perm ([.lastName, .johnDoe, .anyDoe, .all].map (readmePat x h))) :
    (∀ p, p ∈ ps ↔ ∃ k, p = readmePat x h k) ∧ (∀ p ∈ ps, ∀ s ∈ p.segments, Plain false s) ∧
    (∀ p ∈ ps, ∀ s ∈ p.segments, s.kind ≠ .regex ∧ s.kind ≠ .constraint) ∧ (∀ p ∈ ps, (pieces p.raw).length ≤ 19) ∧ ∀ p ∈ ps, StarsLast p.segments := by
  obtain ⟨e1, e2, e3, e4⟩ := readme_segments x h
  have hmem : ∀ p, p ∈ ps ↔ ∃ k, p = readmePat x h k := by
    intro p
    rw [hps.mem_iff]
    simp only [List.map_cons, List.map_nil, List.mem_cons, List.not_mem_nil, or_false]
    constructor
    · rintro (h | h | h | h) <;> exact ⟨_, h⟩
    · rintro ⟨k, rfl⟩; cases k <;> simp
  have hplain : ∀ p ∈ ps, ∀ s ∈ p.segments, Plain false s := by
    intro p hp s hs
    obtain ⟨k, rfl⟩ := (hmem p).1 hp
    refine ⟨?_, fun _ h => by cases h⟩
    intro hk
    cases k
    · rw [e1] at hs; simp at hs; rcases hs with rfl | rfl | rfl <;> cases hk
    · rw [e2] at hs; simp at hs; rcases hs with rfl | rfl | rfl <;> cases hk
    · rw [e3] at hs; simp at hs; rcases hs with rfl | rfl | rfl <;> cases hk
    · rw [e4] at hs; simp at hs; rcases hs with rfl | rfl <;> cases hk
  have hnore : ∀ p ∈ ps, ∀ s ∈ p.segments, s.kind ≠ .regex ∧ s.kind ≠ .constraint := by
    intro p hp s hs
    obtain ⟨k, rfl⟩ := (hmem p).1 hp
    cases k
    · rw [e1] at hs; simp at hs; rcases hs with rfl | rfl | rfl <;> decide
    · rw [e2] at hs; simp at hs; rcases hs with rfl | rfl | rfl <;> decide
    · rw [e3] at hs; simp at hs; rcases hs with rfl | rfl | rfl <;> decide
    · rw [e4] at hs; simp at hs; rcases hs with rfl | rfl <;> decide
  have hshort : ∀ p ∈ ps, (pieces p.raw).length ≤ 19 := by
    intro p hp
    obtain ⟨k, rfl⟩ := (hmem p).1 hp
    cases k <;> exact Nat.le_of_ble_eq_true rfl
  have hstars : ∀ p ∈ ps, StarsLast p.segments := by
    intro p hp a s b he hk
    obtain ⟨k, rfl⟩ := (hmem p).1 hp
    have hs : s ∈ (readmePat x h k).segments := by rw [he]; simp
    cases k
    · rw [e1] at hs; simp at hs; rcases hs with rfl | rfl | rfl <;> cases hk
    · rw [e2] at hs; simp at hs; rcases hs with rfl | rfl | rfl <;> cases hk
    · rw [e3] at hs; simp at hs; rcases hs with rfl | rfl | rfl <;> cases hk
    · rw [e4] at he
      match a, he with
      | [], he => cases he; cases hk
      | [_], he => cases he; rfl
      | _ :: _ :: _, he => simp at he
  exact ⟨hmem, hplain, hnore, hshort, hstars⟩

/-- C78: with the four patterns of the README registered in any order, a request for `/users/...`
with at least two further segments is served by the pattern the README says, and the variable
`lastName` of the first pattern is the last segment.

Missing: requests with one further segment, for which C78 fails. -/
theorem c78_readme_partial {x : Ext} (hl : FoldLaws x.eqFold) (h : ReadmePattern → Nat)
    {ps : List Pattern} {m : Matcher} (hr : Registered x false sortSiblings ps m)
    (hps : ps.Perm ([.lastName, .johnDoe, .anyDoe, .all].map (readmePat x h)))
    {path : Str} {buf : List USeg} (hb : buf.length = 19) (hlen : path.length ≤ 65535) (hf : Fits path)
    {rest : List Str} (hpath : segmentsOf path = b!"users" :: rest) (htwo : 2 ≤ rest.length) :
    ∃ f labels segs, parseURLPath path buf = some segs ∧
      (∀ g, f ≤ g → lookup x false m path buf g = some (.found (readmePat x h (readmeAnswer rest)) labels)) ∧
      (readmeAnswer rest = .lastName → pathVarText path (readmePat x h .lastName) labels segs b!"lastName" = rest.getLast?) := by
  obtain ⟨e1, e2, e3, e4⟩ := readme_segments x h
  obtain ⟨d1, d2, d3, d4⟩ := readme_describes x h rest
  obtain ⟨hmem, hplain, hnore, hshort, hstars⟩ := readme_facts x h hps
  have hne : rest ≠ [] := by rintro rfl; simp at htwo
  have hfaith : Faithful false ps (segmentsOf path) :=
    ⟨fun p hp s hs hk => absurd hk (hnore p hp s hs).1, by simp, by simp⟩
  have hset : Settled x false ps (segmentsOf path) := fun p hp _ _ s hs _ _ hk => absurd hk (hnore p hp s hs).1
  have hpre : ∀ p ∈ ps, ∀ k, 0 < k → k < p.segments.length → ¬ Describes x false (p.segments.take k) (segmentsOf path) := by
    intro p hp k hk0 hk hd
    rw [hpath] at hd
    obtain ⟨r, rfl⟩ := (hmem p).1 hp
    have key : ∀ ss : List Segment, ss.length ≤ 2 → (∀ s ∈ ss, s.kind ≠ .multiple) → ¬ Describes x false ss (b!"users" :: rest) := by
      intro ss h1 h2 h3
      have := describes_length h2 h3
      simp at this
      omega
    cases r <;> simp only [e1, e2, e3, e4, List.length_cons, List.length_nil] at hk hd <;>
      (refine key _ ?_ ?_ hd
       · simp; omega
       · intro s hs
         have : k = 1 ∨ k = 2 := by omega
         rcases this with rfl | rfl <;> simp at hs <;> first | (rcases hs with rfl | rfl <;> decide) | (subst hs; decide) | omega)
  have hfew : ps.length < 65536 := by rw [hps.length_eq]; simp
  have hans : readmePat x h (readmeAnswer rest) ∈ ps := (hmem _).2 ⟨_, rfl⟩
  have hdans : Describes x false (readmePat x h (readmeAnswer rest)).segments (segmentsOf path) := by
    rw [hpath]; exact readme_answer_describes x h hne
  obtain ⟨f, q, labels, hq, hfound⟩ := c18_served_partial hl hr hplain hfew (fun p hp => by have := hshort p hp; omega) hstars hb hlen hf hfaith hpre
    hans hdans
  have h1 := hfound f (Nat.le_refl _)
  obtain ⟨k, rfl⟩ := (hmem q).1 hq
  have hk := readme_answer_best x h k (hpath ▸ (c14_described_partial hl hr hplain hb hlen hf h1).2)
    (c19_most_specific_partial hl hr hplain hfew hshort hstars hb hlen hf hfaith hset hpre h1 hans hdans)
  subst hk
  obtain ⟨segs, bs, h2, h3, h4⟩ := c15_variables_partial hl hr hplain hb hlen hf h1 (by have := hshort _ hq; omega)
  refine ⟨f, labels, segs, h2, hfound, ?_⟩
  intro hlast
  rw [hlast] at h3 h4
  rw [h4, e1]
  rw [e1, hpath] at h3
  obtain ⟨hp1, hp2, _⟩ := h3
  cases hp1 with
  | @cons _ b1 _ _ r1 t1 => cases t1 with
    | @cons _ b2 _ _ r2 t2 => cases t2 with
      | @cons _ b3 _ _ r3 t3 =>
        cases t3
        obtain ⟨u1, rfl⟩ := List.length_eq_one_iff.1 (r1.1 (by decide))
        obtain ⟨u2, rfl⟩ := List.length_eq_one_iff.1 (r2.1 (by decide))
        obtain ⟨u3, rfl⟩ := List.length_eq_one_iff.1 (r3.1 (by decide))
        simp at hp2
        rw [← hp2.2]
        simp [valueIn]

/-- C78 fails for every request with one segment below `/users`, in every order of registration: nobody answers, although `/users/**`
is for it, because `/users/*` is the beginning of `/users/*/doe`. -/
theorem c78_violated_never {x : Ext} (hl : FoldLaws x.eqFold) (h : ReadmePattern → Nat)
    {ps : List Pattern} {m : Matcher} (hr : Registered x false sortSiblings ps m)
    (hps : ps.Perm ([.lastName, .johnDoe, .anyDoe, .all].map (readmePat x h)))
    {path : Str} {buf : List USeg} (hb : buf.length = 19) (hlen : path.length ≤ 65535) (hf : Fits path)
    {w : Str} (hpath : segmentsOf path = [b!"users", w]) :
    Describes x false (readmePat x h .all).segments (segmentsOf path) ∧ ∃ f, ∀ g, f ≤ g → lookup x false m path buf g = some .none := by
  obtain ⟨e1, e2, e3, e4⟩ := readme_segments x h
  obtain ⟨d1, d2, d3, d4⟩ := readme_describes x h [w]
  obtain ⟨hmem, hplain, hnore, hshort, hstars⟩ := readme_facts x h hps
  have hd : ∀ k, Describes x false (readmePat x h k).segments (segmentsOf path) → k = .all := by
    intro k hk
    rw [hpath] at hk
    cases k with
    | all => rfl
    | lastName => obtain ⟨_, h0⟩ := d1.1 hk; cases h0
    | johnDoe => cases d2.1 hk
    | anyDoe => obtain ⟨_, h0⟩ := d3.1 hk; cases h0
  refine ⟨by rw [hpath]; exact d4.2 (by simp), ?_⟩
  obtain ⟨f, hx⟩ := c18_exact_partial hl hr hplain (by rw [hps.length_eq]; simp) hshort hstars hb hlen hf
    ⟨fun p hp s hs hk => absurd hk (hnore p hp s hs).1, by simp, by simp⟩
    (fun p hp _ _ s hs _ _ hk => absurd hk (hnore p hp s hs).1) (List.pairwise_iff_forall_sublist.2 fun hpq s hs _ _ hk => absurd hk (hnore _ (hpq.subset (by simp)) s hs).2)
  refine ⟨f, fun g hg => (hx g hg).2.2 fun p hp hdp => ?_⟩
  obtain ⟨k, rfl⟩ := (hmem p).1 hp
  obtain rfl := hd k hdp
  refine ⟨readmePat x h .anyDoe, (hmem _).2 ⟨_, rfl⟩, 2, by decide, by rw [e3]; decide, ?_, ?_, [.literal], .single, .multiple, by rw [e3]; rfl, by rw [e4]; rfl, by decide⟩
  · rw [e3, hpath]
    exact (describes_two (by decide) (by decide)).2 ⟨_, _, rfl, fit_literal.2 rfl, trivial⟩
  · intro p hp hdp
    obtain ⟨k, rfl⟩ := (hmem p).1 hp
    obtain rfl := hd k hdp
    rw [e4, e3]
    decide

/-- C78, exactly: of the requests below `/users` the documented pattern answers those with two or more segments there. -/
theorem c78_exact {x : Ext} (hl : FoldLaws x.eqFold) (h : ReadmePattern → Nat)
    {ps : List Pattern} {m : Matcher} (hr : Registered x false sortSiblings ps m)
    (hps : ps.Perm ([.lastName, .johnDoe, .anyDoe, .all].map (readmePat x h)))
    {path : Str} {buf : List USeg} (hb : buf.length = 19) (hlen : path.length ≤ 65535) (hf : Fits path)
    {rest : List Str} (hpath : segmentsOf path = b!"users" :: rest) (hne : rest ≠ []) :
    ∃ f, ∀ g, f ≤ g → ((∃ labels, lookup x false m path buf g = some (.found (readmePat x h (readmeAnswer rest)) labels)) ↔ 2 ≤ rest.length) := by
  match rest, hpath, hne with
  | [w], hpath, _ =>
    obtain ⟨_, f, hx⟩ := c78_violated_never hl h hr hps hb hlen hf hpath
    exact ⟨f, fun g hg => ⟨fun ⟨l, h1⟩ => (by rw [hx g hg] at h1; cases h1), fun h => (by simp at h)⟩⟩
  | a :: b :: rest, hpath, _ =>
    obtain ⟨f, labels, _, _, hx, _⟩ := c78_readme_partial hl h hr hps hb hlen hf hpath (by simp)
    exact ⟨f, fun g hg => ⟨fun _ => by simp, fun _ => ⟨labels, hx g hg⟩⟩⟩

/-- C78 fails: although the README says that `/users/**` matches any path that starts with `/users`,
with its four patterns registered in the order given the request `/users/jane` is not served. -/
theorem c78_violated : ∃ ps m, Registered plainExt false sortSiblings ps m ∧
    ps.Perm ([.lastName, .johnDoe, .anyDoe, .all].map (readmePat plainExt fun _ => 1)) ∧
    readmeAnswer [b!"jane"] = .all ∧ segmentsOf b!"/users/jane" = [b!"users", b!"jane"] ∧
    lookup plainExt false m b!"/users/jane" freshBuf 10 = some .none := by
  obtain ⟨ps, m, h1, h2, h3⟩ := checked_spec (x := plainExt) (ci := false)
    (l := [(b!"/users/**", 1), (b!"/users/*/doe", 1), (b!"/users/john/doe", 1), (b!"/users/john/{lastName}", 1)])
    (f := fun ps => ps == ([.lastName, .johnDoe, .anyDoe, .all].map (readmePat plainExt fun _ => 1)).reverse) (by decide +kernel)
  rw [beq_iff_eq] at h2
  refine ⟨ps, m, h1, ?_, by decide, by decide, (h3 _ _ _).symm.trans (by decide +kernel)⟩
  rw [h2]
  exact List.reverse_perm _

/-- The four patterns in another order, and a request with many slashes. -/
example : ∃ ps m, Registered plainExt false sortSiblings ps m ∧ ps.Perm ([.lastName, .johnDoe, .anyDoe, .all].map (readmePat plainExt fun _ => 1)) ∧
    segmentsOf b!"/users//john/wick/" = b!"users" :: [b!"john", b!"wick"] ∧ Fits b!"/users//john/wick/" ∧
    lookup plainExt false m b!"/users//john/wick/" freshBuf 20 = some (.found (readmePat plainExt (fun _ => 1) .lastName) [.literal, .literal, .capture]) := by
  obtain ⟨ps, m, h1, h2, h3⟩ := checked_spec (x := plainExt) (ci := false)
    (l := [(b!"/users/john/{lastName}", 1), (b!"/users/john/doe", 1), (b!"/users/*/doe", 1), (b!"/users/**", 1)])
    (f := fun ps => ps == [.lastName, .johnDoe, .anyDoe, .all].map (readmePat plainExt fun _ => 1)) (by decide +kernel)
  rw [beq_iff_eq] at h2
  exact ⟨ps, m, h1, h2 ▸ .refl _, by decide, fits_of_peak _ (by decide), (h3 _ _ _).symm.trans (by decide +kernel)⟩

/-! ### C79 -/

theorem single_pat {x : Ext} {raw : Str} {h : Nat} {ss : List Segment} (hs : (patOf x false raw h).segments = ss)
    (hkinds : ss.all (fun s => s.kind = .literal ∨ s.kind = .multiple) = true) (us : List Str) :
    (∀ s ∈ (patOf x false raw h).segments, Plain false s) ∧ Faithful false [patOf x false raw h] us := by
  have hk : ∀ s ∈ ss, s.kind = .literal ∨ s.kind = .multiple := by
    intro s hs
    have := List.all_eq_true.1 hkinds s hs
    simpa using this
  refine ⟨fun s h => ⟨fun h' => ?_, fun _ h => by cases h⟩, ⟨?_, by simp, by simp⟩⟩
  · rw [hs] at h
    rcases hk s h with h'' | h'' <;> rw [h''] at h' <;> cases h'
  · intro p hp s hsp h'
    rw [List.mem_singleton] at hp
    subst hp
    rw [hs] at hsp
    rcases hk s hsp with h'' | h'' <;> rw [h''] at h' <;> cases h'

/-- C79: `/users/**/doe` on its own serves exactly the paths of at least two segments that start
with `/users` and end with `/doe`. -/
theorem c79_between {x : Ext} (hl : FoldLaws x.eqFold) (h : Nat)
    {m : Matcher} (hr : Registered x false sortSiblings [patOf x false b!"/users/**/doe" h] m)
    {path : Str} {buf : List USeg} (hb : buf.length = 19) (hlen : path.length ≤ 65535) (hf : Fits path) :
    ∃ f, ∀ g, f ≤ g →
      (((segmentsOf path).head? = some b!"users" ∧ (segmentsOf path).getLast? = some b!"doe") ∧
        ∃ labels, lookup x false m path buf g = some (.found (patOf x false b!"/users/**/doe" h) labels)) ∨
      (¬ ((segmentsOf path).head? = some b!"users" ∧ (segmentsOf path).getLast? = some b!"doe") ∧ lookup x false m path buf g = some .none) := by
  have hs : (patOf x false b!"/users/**/doe" h).segments =
      [{ val := b!"users", kind := .literal }, { val := b!"**", kind := .multiple }, { val := b!"doe", kind := .literal }] := rfl
  obtain ⟨hp, hfaith⟩ := single_pat hs (by decide) (segmentsOf path)
  have hd : Describes x false (patOf x false b!"/users/**/doe" h).segments (segmentsOf path) ↔
      (segmentsOf path).head? = some b!"users" ∧ (segmentsOf path).getLast? = some b!"doe" := by
    rw [hs, describes_one (by decide)]
    constructor
    · rintro ⟨u, vs, h1, h2, h3⟩
      rw [fit_literal] at h2
      subst h2
      obtain ⟨ws, ws', rfl, _, h4⟩ := (describes_star rfl).1 h3
      obtain ⟨u, us, rfl, h5, h6⟩ := (describes_one (by decide)).1 h4
      rw [fit_literal] at h5
      rw [describes_nil] at h6
      subst h5
      subst h6
      rw [h1, show (b!"users" :: (ws ++ [b!"doe"]) : List Str) = (b!"users" :: ws) ++ [b!"doe"] from rfl]
      exact ⟨rfl, List.getLast?_concat ..⟩
    · rintro ⟨h1, h2⟩
      cases hu : segmentsOf path with
      | nil => rw [hu] at h1; cases h1
      | cons u us =>
        rw [hu] at h1 h2
        simp only [List.head?_cons, Option.some.injEq] at h1
        subst h1
        rcases List.eq_nil_or_concat us with rfl | ⟨ws, w, rfl⟩
        · simp at h2
        · rw [List.concat_eq_append] at h2 ⊢
          rw [show (b!"users" :: (ws ++ [w]) : List Str) = (b!"users" :: ws) ++ [w] from rfl, List.getLast?_concat] at h2
          cases h2
          exact ⟨_, _, rfl, fit_literal.2 rfl, (describes_star rfl).2 ⟨ws, [b!"doe"], rfl, by simp,
            (describes_one (by decide)).2 ⟨_, _, rfl, fit_literal.2 rfl, describes_nil.2 rfl⟩⟩⟩
  obtain ⟨f, hfu⟩ := c18_single_exact_partial hl hr hp (Nat.lt_of_lt_of_le (m := 4) (Nat.le_of_ble_eq_true rfl) (by omega)) (.inl (by rw [hs]; decide)) hb hlen hf hfaith
  refine ⟨f, fun g hg => ?_⟩
  rw [← hd]
  exact hfu g hg

/-- C79: `/users/**` on its own serves exactly the paths that start with `/users` and go on.

Missing: the path `/users` itself, for which C79 fails. -/
theorem c79_below_partial {x : Ext} (hl : FoldLaws x.eqFold) (h : Nat)
    {m : Matcher} (hr : Registered x false sortSiblings [patOf x false b!"/users/**" h] m)
    {path : Str} {buf : List USeg} (hb : buf.length = 19) (hlen : path.length ≤ 65535) (hf : Fits path) :
    ∃ f, ∀ g, f ≤ g →
      (((segmentsOf path).head? = some b!"users" ∧ 2 ≤ (segmentsOf path).length) ∧
        ∃ labels, lookup x false m path buf g = some (.found (patOf x false b!"/users/**" h) labels)) ∨
      (¬ ((segmentsOf path).head? = some b!"users" ∧ 2 ≤ (segmentsOf path).length) ∧ lookup x false m path buf g = some .none) := by
  have hs : (patOf x false b!"/users/**" h).segments = [{ val := b!"users", kind := .literal }, { val := b!"**", kind := .multiple }] := rfl
  obtain ⟨hp, hfaith⟩ := single_pat hs (by decide) (segmentsOf path)
  have hd : Describes x false (patOf x false b!"/users/**" h).segments (segmentsOf path) ↔
      (segmentsOf path).head? = some b!"users" ∧ 2 ≤ (segmentsOf path).length := by
    rw [hs, describes_one (by decide)]
    constructor
    · rintro ⟨u, vs, h1, h2, h3⟩
      rw [fit_literal] at h2
      subst h2
      obtain ⟨ws, ws', rfl, h4, _⟩ := (describes_star rfl).1 h3
      have := List.length_pos_iff.2 (h4 rfl)
      rw [h1]
      exact ⟨rfl, by simp; omega⟩
    · rintro ⟨h1, h2⟩
      cases hu : segmentsOf path with
      | nil => rw [hu] at h1; cases h1
      | cons u us =>
        rw [hu] at h1 h2
        simp only [List.head?_cons, Option.some.injEq] at h1
        subst h1
        refine ⟨_, _, rfl, fit_literal.2 rfl, (describes_star rfl).2 ⟨us, [], by simp, ?_, describes_nil.2 rfl⟩⟩
        rintro _ rfl
        simp at h2
  obtain ⟨f, hfu⟩ := c18_single_exact_partial hl hr hp (Nat.lt_of_lt_of_le (m := 4) (Nat.le_of_ble_eq_true rfl) (by omega)) (.inl (by rw [hs]; decide)) hb hlen hf hfaith
  refine ⟨f, fun g hg => ?_⟩
  rw [← hd]
  exact hfu g hg

/-- C79 fails for every spelling of the path `/users`: `/users/**` never serves it. -/
theorem c79_violated_never {x : Ext} (hl : FoldLaws x.eqFold) (h : Nat)
    {m : Matcher} (hr : Registered x false sortSiblings [patOf x false b!"/users/**" h] m)
    {path : Str} {buf : List USeg} (hb : buf.length = 19) (hlen : path.length ≤ 65535) (hf : Fits path) (hpath : segmentsOf path = [b!"users"]) :
    ∃ f, ∀ g, f ≤ g → lookup x false m path buf g = some .none := by
  obtain ⟨f, hx⟩ := c79_below_partial hl h hr hb hlen hf
  refine ⟨f, fun g hg => ?_⟩
  rcases hx g hg with ⟨⟨_, h2⟩, _⟩ | ⟨_, h1⟩
  · rw [hpath] at h2; simp at h2
  · exact h1

/-- C79 fails: `/users` starts with `/users`, and `/users/**` does not serve it. -/
theorem c79_violated : ∃ m, Registered plainExt false sortSiblings [patOf plainExt false b!"/users/**" 1] m ∧
    lookup plainExt false m b!"/users" freshBuf 10 = some .none := by
  obtain ⟨ps, m, h1, h2, h3⟩ := checked_spec (x := plainExt) (ci := false) (l := [(b!"/users/**", 1)])
    (f := fun ps => ps == [patOf plainExt false b!"/users/**" 1]) (by decide +kernel)
  rw [beq_iff_eq] at h2
  exact ⟨m, h2 ▸ h1, (h3 _ _ _).symm.trans (by decide +kernel)⟩

/-- A trie for `/users/**/doe`, a request it serves and one it does not. -/
example : ∃ m, Registered plainExt false sortSiblings [patOf plainExt false b!"/users/**/doe" 1] m ∧
    Fits b!"/users/doe/x/doe" ∧
    lookup plainExt false m b!"/users/doe/x/doe" freshBuf 20 = some (.found (patOf plainExt false b!"/users/**/doe" 1) [.literal, .multiple, .multiple, .literal]) ∧
    lookup plainExt false m b!"/users/doe/x" freshBuf 20 = some .none := by
  obtain ⟨ps, m, h1, h2, h3⟩ := checked_spec (x := plainExt) (ci := false) (l := [(b!"/users/**/doe", 1)])
    (f := fun ps => ps == [patOf plainExt false b!"/users/**/doe" 1]) (by decide +kernel)
  rw [beq_iff_eq] at h2
  exact ⟨m, h2 ▸ h1, fits_of_peak _ (by decide), (h3 _ _ _).symm.trans (by decide +kernel), (h3 _ _ _).symm.trans (by decide +kernel)⟩

end Gofre.Props
