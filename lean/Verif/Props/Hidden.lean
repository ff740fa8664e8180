import Verif.Proofs.Hidden
import Verif.Props.Complete

/-!
# Exactly which pattern answers

Properties C18, C19, C20 and C23 without assuming that no beginning of a pattern describes the
request: a described request goes unanswered exactly when every pattern describing it is hidden by
the beginning of another.
-/

namespace Gofre.Props
open Gofre.Path Gofre.Spec

theorem not_hidden_root {x : Ext} {ci : Bool} {ps : List Pattern} (hstars : ∀ p ∈ ps, StarsLast p.segments) (ss : List Segment) :
    ¬ Hidden x ci ps [] ss := by
  rintro ⟨q, hq, k, h1, h2, h3, _⟩
  have := describes_length (starsLast_take (hstars q hq) h2) h3
  simp at this
  omega

theorem hidden_perm {x : Ext} {ci : Bool} {ps ps' : List Pattern} (hmem : ∀ p, p ∈ ps' ↔ p ∈ ps) {us : List Str} {ss : List Segment} :
    Hidden x ci ps' us ss ↔ Hidden x ci ps us ss := by
  constructor
  · rintro ⟨q, h1, k, h2, h3, h4, h5, h6⟩
    exact ⟨q, (hmem q).1 h1, k, h2, h3, h4, fun p hp => h5 p ((hmem p).2 hp), h6⟩
  · rintro ⟨q, h1, k, h2, h3, h4, h5, h6⟩
    exact ⟨q, (hmem q).2 h1, k, h2, h3, h4, fun p hp => h5 p ((hmem p).1 hp), h6⟩

theorem rival_symm {x : Ext} {ci : Bool} {us : List Str} {p q : Pattern}
    (h : ∀ s ∈ p.segments, ∀ t ∈ q.segments, s.kind = .constraint → t.kind = .constraint → ∀ u ∈ us, ¬ (Fit x ci s u ∧ Fit x ci t u)) :
    ∀ s ∈ q.segments, ∀ t ∈ p.segments, s.kind = .constraint → t.kind = .constraint → ∀ u ∈ us, ¬ (Fit x ci s u ∧ Fit x ci t u) :=
  fun s hs t ht h1 h2 u hu h3 => h t ht s hs h2 h1 u hu h3.symm

theorem unrivalled_eq {x : Ext} {ci : Bool} {ps : List Pattern} {us : List Str} (h : Unrivalled x ci ps us) :
    ∀ p ∈ ps, ∀ q ∈ ps, ∀ s ∈ p.segments, ∀ t ∈ q.segments, s.kind = .constraint → t.kind = .constraint → ∀ u ∈ us,
      Fit x ci s u → Fit x ci t u → p = q := by
  induction ps with
  | nil => intro p hp; cases hp
  | cons a ps ih =>
    obtain ⟨h1, h2⟩ := List.pairwise_cons.1 h
    intro p hp q hq s hs t ht k1 k2 u hu f1 f2
    rcases List.mem_cons.1 hp with hp' | hp' <;> rcases List.mem_cons.1 hq with hq' | hq'
    · rw [hp', hq']
    · subst hp'; exact absurd ⟨f1, f2⟩ (h1 q hq' s hs t ht k1 k2 u hu)
    · subst hq'; exact absurd ⟨f2, f1⟩ (h1 p hp' t ht s hs k2 k1 u hu)
    · exact ih h2 p hp' q hq' s hs t ht k1 k2 u hu f1 f2

/-- C18, exactly: a request is not served precisely when every registered pattern describing it is
hidden by the beginning of another, when `**` only ends patterns, wildcards are compared exactly,
and neither wildcards nor constrained variables compete. -/
theorem c18_exact_partial {x : Ext} {ci : Bool} (hl : FoldLaws x.eqFold)
    {ps : List Pattern} {m : Matcher} (hr : Registered x ci sortSiblings ps m) (hplain : ∀ p ∈ ps, ∀ s ∈ p.segments, Plain ci s)
    (hfew : ps.length < 65536) (hshort : ∀ p ∈ ps, (pieces p.raw).length ≤ 19) (hstars : ∀ p ∈ ps, StarsLast p.segments)
    {path : Str} {buf : List USeg} (hb : buf.length = 19) (hlen : path.length ≤ 65535) (hf : Fits path)
    (hfaith : Faithful ci ps (segmentsOf path)) (hset : Settled x ci ps (segmentsOf path)) (hcon : Unrivalled x ci ps (segmentsOf path)) :
    ∃ f, ∀ g, f ≤ g → lookup x ci m path buf g ≠ none ∧
      (lookup x ci m path buf g = some .none ↔
        ∀ p ∈ ps, Describes x ci p.segments (segmentsOf path) → Hidden x ci ps (segmentsOf path) p.segments) := by
  obtain ⟨f, hfu⟩ := lookup_eq x ci m path buf hb hlen
  rw [requestOf_fits hf] at hfu
  have h19 : (segmentsOf path).length ≤ 19 := hf _ (List.prefix_refl _)
  refine ⟨f, fun g hg => ?_⟩
  rw [hfu g hg]
  refine ⟨by simp, ?_⟩
  by_cases hne : segmentsOf path = []
  · rw [hne]
    have hh := holds sortSiblings_perm hr
    constructor
    · intro h p hp hd
      have := hh.rootAdded p hp (describes_root (hstars p hp) hd)
      simp [answer, this] at h
    · intro h
      cases hm : m.root with
      | some p =>
        obtain ⟨g1, g2⟩ := hh.root p hm
        exact absurd (h p g1 (by rw [g2]; exact describes_nil.2 rfl)) (not_hidden_root hstars _)
      | none => simp [answer, hm, tryC_nil, Res.toM]
  · rcases answer_exact hl sortSiblings_perm sortSiblings_sorted hr hplain hfew hstars hshort hset hcon h19 hfaith hne with ⟨p, ls, h1, h2, h3, h4, _⟩ | ⟨h1, h2⟩
    · rw [h1]
      constructor
      · intro h; cases h
      · intro h; exact absurd (h p h2 h3) h4
    · rw [h1]
      exact ⟨fun _ => h2, fun _ => rfl⟩

/-- C19, exactly: the answer is not hidden, and among the registered patterns that describe the
request and are not hidden it is the most specific. -/
theorem c19_exact_partial {x : Ext} {ci : Bool} (hl : FoldLaws x.eqFold)
    {ps : List Pattern} {m : Matcher} (hr : Registered x ci sortSiblings ps m) (hplain : ∀ p ∈ ps, ∀ s ∈ p.segments, Plain ci s)
    (hfew : ps.length < 65536) (hshort : ∀ p ∈ ps, (pieces p.raw).length ≤ 19) (hstars : ∀ p ∈ ps, StarsLast p.segments)
    {path : Str} {buf : List USeg} (hb : buf.length = 19) (hlen : path.length ≤ 65535) (hf : Fits path)
    (hfaith : Faithful ci ps (segmentsOf path)) (hset : Settled x ci ps (segmentsOf path)) (hcon : Unrivalled x ci ps (segmentsOf path))
    {fuel : Nat} {p : Pattern} {labels : List MT} (h : lookup x ci m path buf fuel = some (.found p labels)) :
    p ∈ ps ∧ Describes x ci p.segments (segmentsOf path) ∧ ¬ Hidden x ci ps (segmentsOf path) p.segments ∧
    ∀ q ∈ ps, Describes x ci q.segments (segmentsOf path) → ¬ Hidden x ci ps (segmentsOf path) q.segments →
      MoreSpecific (kinds p.segments) (kinds q.segments) := by
  have h19 : (segmentsOf path).length ≤ 19 := hf _ (List.prefix_refl _)
  obtain ⟨d1, d2⟩ := c14_described_partial hl hr hplain hb hlen hf h
  have h := lookup_result hb hlen h
  rw [requestOf_fits hf] at h
  by_cases hne : segmentsOf path = []
  · refine ⟨d1, d2, by rw [hne]; exact not_hidden_root hstars _, ?_⟩
    intro q hq hd _
    rw [hne] at hd
    rw [describes_root (hstars q hq) hd]
    intro i k k' _ _ h
    simp at h
  · rcases answer_exact hl sortSiblings_perm sortSiblings_sorted hr hplain hfew hstars hshort hset hcon h19 hfaith hne with ⟨p', ls, h1, h2, h3, h4, h5⟩ | ⟨h1, _⟩
    · rw [h1] at h
      simp only [MRes.found.injEq] at h
      rw [← h.1] at h2 h3 h4 h5
      exact ⟨h2, h3, h4, h5⟩
    · rw [h1] at h; cases h

/-- C20: two registration orders of the same patterns answer a request alike, also when beginnings
of patterns describe it. -/
theorem c20_beginnings_partial {x : Ext} {ci : Bool} (hl : FoldLaws x.eqFold)
    {ps ps' : List Pattern} {m m' : Matcher} (hr : Registered x ci sortSiblings ps m) (hr' : Registered x ci sortSiblings ps' m') (hperm : ps.Perm ps')
    (hplain : ∀ p ∈ ps, ∀ s ∈ p.segments, Plain ci s)
    (hfew : ps.length < 65536) (hshort : ∀ p ∈ ps, (pieces p.raw).length ≤ 19) (hstars : ∀ p ∈ ps, StarsLast p.segments)
    {path : Str} {buf buf' : List USeg} (hb : buf.length = 19) (hb' : buf'.length = 19) (hlen : path.length ≤ 65535) (hf : Fits path)
    (hfaith : Faithful ci ps (segmentsOf path)) (hset : Settled x ci ps (segmentsOf path)) (hcon : Unrivalled x ci ps (segmentsOf path)) :
    ∃ f, ∀ g, f ≤ g → lookup x ci m path buf g = lookup x ci m' path buf' g ∧ lookup x ci m path buf g ≠ none := by
  obtain ⟨f, h1⟩ := lookup_eq x ci m path buf hb hlen
  obtain ⟨f', h1'⟩ := lookup_eq x ci m' path buf' hb' hlen
  rw [requestOf_fits hf] at h1 h1'
  refine ⟨max f f', fun g hg => ?_⟩
  rw [h1 g (by omega), h1' g (by omega)]
  refine ⟨?_, by simp⟩
  congr 1
  have hmem : ∀ p, p ∈ ps' ↔ p ∈ ps := fun p => (hperm.mem_iff (a := p)).symm
  have h19 : (segmentsOf path).length ≤ 19 := hf _ (List.prefix_refl _)
  by_cases hne : segmentsOf path = []
  · rw [hne]
    exact roots_agree hr hr' hperm
  · have B := answer_exact hl sortSiblings_perm sortSiblings_sorted hr hplain hfew hstars hshort hset hcon h19 hfaith hne
    have B' := answer_exact hl sortSiblings_perm sortSiblings_sorted hr' (fun p hp => hplain p ((hmem p).1 hp)) (by rw [← hperm.length_eq]; exact hfew)
      (fun p hp => hstars p ((hmem p).1 hp)) (fun p hp => hshort p ((hmem p).1 hp)) (fun p hp q hq => hset p ((hmem p).1 hp) q ((hmem q).1 hq))
      ((hperm.pairwise_iff rival_symm).1 hcon) h19
      ⟨fun p hp => hfaith.wild p ((hmem p).1 hp), fun hc p hp => hfaith.pats hc p ((hmem p).1 hp), hfaith.request⟩ hne
    rcases B with ⟨p, ls, a1, a2, a3, a4, a5⟩ | ⟨a1, a2⟩ <;> rcases B' with ⟨p', ls', b1, b2, b3, b4, b5⟩ | ⟨b1, b2⟩
    · rw [a1, b1]
      refine answers_agree hl hr hr' hperm hplain hstars hset (unrivalled_eq hcon) hne a1 b1 a2 b2
        (a5 p' ((hmem p').1 b2) b3 fun h => b4 ((hidden_perm hmem).2 h)) (b5 p ((hmem p).2 a2) a3 fun h => a4 ((hidden_perm hmem).1 h))
    · exact absurd ((hidden_perm hmem).1 (b2 p ((hmem p).2 a2) a3)) a4
    · exact absurd ((hidden_perm hmem).2 (a2 p' ((hmem p').1 b2) b3)) b4
    · rw [a1, b1]

/-- C23, exactly: a further registration takes a request away from everyone only if a proper
beginning of the new pattern itself describes the whole request, differs in kind from the pattern
that used to answer only in the last segment, and is the more specific there. -/
theorem c23_culprit_partial {x : Ext} {ci : Bool} (hl : FoldLaws x.eqFold)
    {ps : List Pattern} {m m' : Matcher} {new : Pattern} (hr : Registered x ci sortSiblings ps m) (hr' : Registered x ci sortSiblings (new :: ps) m')
    (hplain : ∀ p ∈ new :: ps, ∀ s ∈ p.segments, Plain ci s)
    (hfew : (new :: ps).length < 65536) (hshort : ∀ p ∈ new :: ps, (pieces p.raw).length ≤ 19) (hstars : ∀ p ∈ new :: ps, StarsLast p.segments)
    {path : Str} {buf buf' : List USeg} (hb : buf.length = 19) (hb' : buf'.length = 19) (hlen : path.length ≤ 65535) (hf : Fits path)
    (hfaith : Faithful ci (new :: ps) (segmentsOf path)) (hset : Settled x ci (new :: ps) (segmentsOf path))
    (hcon : Unrivalled x ci (new :: ps) (segmentsOf path))
    {fuel fuel' : Nat} {p : Pattern} {labels : List MT} (h : lookup x ci m path buf fuel = some (.found p labels))
    (h' : lookup x ci m' path buf' fuel' = some .none) :
    ∃ k, 0 < k ∧ k < new.segments.length ∧ Describes x ci (new.segments.take k) (segmentsOf path) ∧
      ∃ ks a b, kinds (new.segments.take k) = ks ++ [a] ∧ kinds p.segments = ks ++ [b] ∧ rank a < rank b := by
  obtain ⟨h1, h2, h3, _⟩ := c19_exact_partial hl hr (fun p hp => hplain p (by simp [hp])) (by simp at hfew; omega)
    (fun p hp => hshort p (by simp [hp])) (fun p hp => hstars p (by simp [hp])) hb hlen hf
    ⟨fun p hp => hfaith.wild p (by simp [hp]), fun hc p hp => hfaith.pats hc p (by simp [hp]), hfaith.request⟩
    (fun p hp q hq => hset p (by simp [hp]) q (by simp [hq])) (List.pairwise_cons.1 hcon).2 h
  obtain ⟨f, hfu⟩ := c18_exact_partial hl hr' hplain hfew hshort hstars hb' hlen hf hfaith hset hcon
  obtain ⟨f', hfu'⟩ := lookup_eq x ci m' path buf' hb' hlen
  have h'' := lookup_result hb' hlen h'
  obtain ⟨q, hq, k, g1, g2, g3, g4, g5⟩ := ((hfu (max f f') (by omega)).2.1 (by rw [hfu' _ (by omega), h''])) p (by simp [h1]) h2
  rcases List.mem_cons.1 hq with rfl | hq
  · exact ⟨k, g1, g2, g3, g5⟩
  · exact absurd ⟨q, hq, k, g1, g2, g3, fun p hp => g4 p (by simp [hp]), g5⟩ h3

/-! ### The hypotheses on patterns whose beginnings compete -/

/-- A check for the hypotheses, for case-sensitive patterns without wildcards and constraints. -/
def bareB (ps : List Pattern) : Bool :=
  ps.all fun p => p.segments.all (fun s => plainB false s && decide (s.kind ≠ .regex) && decide (s.kind ≠ .constraint)) && starsLastB p.segments &&
    decide ((pieces p.raw).length ≤ 19)

theorem bare_spec {ps : List Pattern} (h : bareB ps = true) (us : List Str) :
    (∀ p ∈ ps, ∀ s ∈ p.segments, Plain false s) ∧ (∀ p ∈ ps, (pieces p.raw).length ≤ 19) ∧ (∀ p ∈ ps, StarsLast p.segments) ∧
    Faithful false ps us ∧ Settled plainExt false ps us ∧ Unrivalled plainExt false ps us := by
  simp only [Bool.and_eq_true, decide_eq_true_eq, bareB, List.all_eq_true] at h
  refine ⟨fun p hp s hs => plain_of_B ((h p hp).1.1 s hs).1.1, fun p hp => (h p hp).2, fun p hp => starsLast_of_B (h p hp).1.2,
    ⟨fun p hp s hs hk => absurd hk ((h p hp).1.1 s hs).1.2, by simp, by simp⟩, fun p hp q hq s hs t ht hk => absurd hk ((h p hp).1.1 s hs).1.2,
    List.pairwise_iff_forall_sublist.2 fun {p q} hpq s hs t _ hk => absurd hk ((h p (hpq.subset (by simp))).1.1 s hs).2⟩

/-- `/a/b/x`, `/a/{y}`, `/{z}/b`, `/a/c/x` and `/a/c`, asked for `/a/b`: `/a/{y}` is hidden by the beginning
of `/a/b/x`, and `/{z}/b` answers; asked for `/a/c`, nothing is hidden. -/
example : ∃ ps m, Registered plainExt false sortSiblings ps m ∧ ps.length = 5 ∧
    ((∀ p ∈ ps, ∀ s ∈ p.segments, Plain false s) ∧ (∀ p ∈ ps, (pieces p.raw).length ≤ 19) ∧ (∀ p ∈ ps, StarsLast p.segments) ∧
      Faithful false ps (segmentsOf b!"/a/b") ∧ Settled plainExt false ps (segmentsOf b!"/a/b") ∧ Unrivalled plainExt false ps (segmentsOf b!"/a/b")) ∧
    Fits b!"/a/b" ∧ lookup plainExt false m b!"/a/b" freshBuf 20 = some (.found (patOf plainExt false b!"/{z}/b" 3) [.capture, .literal]) ∧
    patOf plainExt false b!"/a/{y}" 2 ∈ ps ∧ Describes plainExt false (patOf plainExt false b!"/a/{y}" 2).segments (segmentsOf b!"/a/b") ∧
    Hidden plainExt false ps (segmentsOf b!"/a/b") (patOf plainExt false b!"/a/{y}" 2).segments ∧
    lookup plainExt false m b!"/a/c" freshBuf 20 = some (.found (patOf plainExt false b!"/a/c" 5) [.literal, .literal]) := by
  obtain ⟨ps, m, h1, h2, h3⟩ := checked_spec (x := plainExt) (ci := false)
    (l := [(b!"/a/c", 5), (b!"/a/c/x", 4), (b!"/{z}/b", 3), (b!"/a/{y}", 2), (b!"/a/b/x", 1)])
    (f := fun ps => bareB ps && (ps == [patOf plainExt false b!"/a/c" 5, patOf plainExt false b!"/a/c/x" 4, patOf plainExt false b!"/{z}/b" 3,
      patOf plainExt false b!"/a/{y}" 2, patOf plainExt false b!"/a/b/x" 1])) (by decide +kernel)
  simp only [Bool.and_eq_true, beq_iff_eq] at h2
  obtain ⟨hbare, rfl⟩ := h2
  have s1 : (patOf plainExt false b!"/a/c" 5).segments = [{ val := b!"a", kind := .literal }, { val := b!"c", kind := .literal }] := by decide +kernel
  have s2 : (patOf plainExt false b!"/a/c/x" 4).segments =
      [{ val := b!"a", kind := .literal }, { val := b!"c", kind := .literal }, { val := b!"x", kind := .literal }] := by decide +kernel
  have s3 : (patOf plainExt false b!"/{z}/b" 3).segments =
      [{ val := b!"{z}", kind := .capture, varName := b!"z" }, { val := b!"b", kind := .literal }] := by decide +kernel
  have s4 : (patOf plainExt false b!"/a/{y}" 2).segments =
      [{ val := b!"a", kind := .literal }, { val := b!"{y}", kind := .capture, varName := b!"y" }] := by decide +kernel
  have s5 : (patOf plainExt false b!"/a/b/x" 1).segments =
      [{ val := b!"a", kind := .literal }, { val := b!"b", kind := .literal }, { val := b!"x", kind := .literal }] := by decide +kernel
  have hus : segmentsOf b!"/a/b" = [b!"a", b!"b"] := by decide
  refine ⟨_, m, h1, rfl, bare_spec hbare _, fits_of_peak _ (by decide), (h3 _ _ _).symm.trans (by decide +kernel), by simp, ?_, ?_,
    (h3 _ _ _).symm.trans (by decide +kernel)⟩
  · rw [hus, s4]
    exact (describes_one (by decide)).2 ⟨_, _, rfl, .inl rfl, (describes_one (by decide)).2 ⟨_, [], rfl, trivial, describes_nil.2 rfl⟩⟩
  · refine ⟨patOf plainExt false b!"/a/b/x" 1, by simp, 2, by decide, by rw [s5]; decide, ?_, ?_, [.literal], .literal, .capture, by rw [s5]; rfl,
      by rw [s4]; rfl, by decide⟩
    · rw [hus, s5]
      exact (describes_one (by decide)).2 ⟨_, _, rfl, .inl rfl, (describes_one (by decide)).2 ⟨_, [], rfl, .inl rfl, describes_nil.2 rfl⟩⟩
    · intro p hp hd hk
      rw [s5] at hk
      simp only [List.mem_cons, List.not_mem_nil, or_false] at hp
      rcases hp with rfl | rfl | rfl | rfl | rfl
      · rw [s1, hus] at hd
        obtain ⟨u, vs, e, _, hd⟩ := (describes_one (by decide)).1 hd
        obtain ⟨v, ws, e', h, _⟩ := (describes_one (by decide)).1 hd
        cases e; cases e'
        simp [Fit] at h
      · rw [s2] at hk; revert hk; decide
      · rw [s3] at hk; revert hk; decide
      · rw [s4] at hk; revert hk; decide
      · rw [s5] at hk; revert hk; decide

/-- `/u/{id:4}/p`, `/u/{id:x}` and `/u/{name}`, asked for `/u/42`: only one of the constrained variables accepts the segment, it hides `/u/{name}`,
and nobody answers. -/
example : ∃ ps m, Registered plainExt false sortSiblings ps m ∧ ps.length = 3 ∧
    ((∀ p ∈ ps, ∀ s ∈ p.segments, Plain false s) ∧ (∀ p ∈ ps, (pieces p.raw).length ≤ 19) ∧ (∀ p ∈ ps, StarsLast p.segments) ∧
      Faithful false ps (segmentsOf b!"/u/42") ∧ Settled plainExt false ps (segmentsOf b!"/u/42") ∧ Unrivalled plainExt false ps (segmentsOf b!"/u/42")) ∧
    Fits b!"/u/42" ∧ lookup plainExt false m b!"/u/42" freshBuf 20 = some .none ∧
    patOf plainExt false b!"/u/{name}" 1 ∈ ps ∧ Describes plainExt false (patOf plainExt false b!"/u/{name}" 1).segments (segmentsOf b!"/u/42") := by
  obtain ⟨ps, m, h1, h2, h3⟩ := checked_spec (x := plainExt) (ci := false)
    (l := [(b!"/u/{id:4}/p", 3), (b!"/u/{id:x}", 2), (b!"/u/{name}", 1)])
    (f := fun ps => ps.all (fun p => p.segments.all (fun s => plainB false s && decide (s.kind ≠ .regex)) && starsLastB p.segments && decide ((pieces p.raw).length ≤ 19)) &&
      (ps == [patOf plainExt false b!"/u/{id:4}/p" 3, patOf plainExt false b!"/u/{id:x}" 2, patOf plainExt false b!"/u/{name}" 1])) (by decide +kernel)
  simp only [Bool.and_eq_true, beq_iff_eq, decide_eq_true_eq, List.all_eq_true] at h2
  obtain ⟨h, rfl⟩ := h2
  have hus : segmentsOf b!"/u/42" = [b!"u", b!"42"] := by decide
  have s1 : (patOf plainExt false b!"/u/{id:4}/p" 3).segments = [{ val := b!"u", kind := .literal },
    { val := b!"{id:4}", kind := .constraint, varName := b!"id", re := some b!"4" }, { val := b!"p", kind := .literal }] := by decide +kernel
  have s2 : (patOf plainExt false b!"/u/{id:x}" 2).segments = [{ val := b!"u", kind := .literal },
    { val := b!"{id:x}", kind := .constraint, varName := b!"id", re := some b!"x" }] := by decide +kernel
  have s3 : (patOf plainExt false b!"/u/{name}" 1).segments = [{ val := b!"u", kind := .literal },
    { val := b!"{name}", kind := .capture, varName := b!"name" }] := by decide +kernel
  refine ⟨_, m, h1, rfl, ⟨fun p hp s hs => plain_of_B ((h p hp).1.1 s hs).1, fun p hp => (h p hp).2, fun p hp => starsLast_of_B (h p hp).1.2,
    ⟨fun p hp s hs hk => absurd hk ((h p hp).1.1 s hs).2, by simp, by simp⟩, fun p hp q hq s hs t ht hk => absurd hk ((h p hp).1.1 s hs).2, ?_⟩,
    fits_of_peak _ (by decide), (h3 _ _ _).symm.trans (by decide +kernel), by simp, ?_⟩
  · unfold Unrivalled
    rw [hus]
    simp only [List.pairwise_cons, List.mem_cons, List.not_mem_nil, or_false, forall_eq_or_imp, forall_eq, s1, s2, s3, Fit]
    simp [plainExt]
    decide
  · rw [hus, s3]
    exact (describes_one (by decide)).2 ⟨_, _, rfl, .inl rfl, (describes_one (by decide)).2 ⟨_, [], rfl, trivial, describes_nil.2 rfl⟩⟩

/-- Registering `/a/b` after `/{x}` takes `/a` away: the hypotheses of `c23_culprit_partial`. -/
example : ∃ ps new m m' labels, Registered plainExt false sortSiblings ps m ∧ Registered plainExt false sortSiblings (new :: ps) m' ∧
    ((∀ p ∈ new :: ps, ∀ s ∈ p.segments, Plain false s) ∧ (∀ p ∈ new :: ps, (pieces p.raw).length ≤ 19) ∧ (∀ p ∈ new :: ps, StarsLast p.segments) ∧
      Faithful false (new :: ps) (segmentsOf b!"/a") ∧ Settled plainExt false (new :: ps) (segmentsOf b!"/a") ∧
      Unrivalled plainExt false (new :: ps) (segmentsOf b!"/a")) ∧ Fits b!"/a" ∧
    lookup plainExt false m b!"/a" freshBuf 20 = some (.found (patOf plainExt false b!"/{x}" 1) labels) ∧
    lookup plainExt false m' b!"/a" freshBuf 20 = some .none := by
  obtain ⟨ps, m, h1, h2, h3⟩ := checked_spec (x := plainExt) (ci := false) (l := [(b!"/{x}", 1)])
    (f := fun ps => ps == [patOf plainExt false b!"/{x}" 1]) (by decide +kernel)
  obtain ⟨ps', m', h1', h2', h3'⟩ := checked_spec (x := plainExt) (ci := false) (l := [(b!"/a/b", 2), (b!"/{x}", 1)])
    (f := fun ps => bareB ps && (ps == [patOf plainExt false b!"/a/b" 2, patOf plainExt false b!"/{x}" 1])) (by decide +kernel)
  simp only [Bool.and_eq_true, beq_iff_eq] at h2 h2'
  obtain ⟨hbare, rfl⟩ := h2'
  subst h2
  exact ⟨_, _, m, m', [.capture], h1, h1', bare_spec hbare _, fits_of_peak _ (by decide), (h3 _ _ _).symm.trans (by decide +kernel),
    (h3' _ _ _).symm.trans (by decide +kernel)⟩

end Gofre.Props
