import Verif.Props.Complete
import Verif.Spec.Shared

/-! # C14, C15 and C22 for all patterns -/

namespace Gofre.Props
open Gofre.Path Gofre.Spec

theorem standsFor_of {x : Ext} {ci : Bool} {ps : List Pattern} {s c : Segment} (hc : ∃ p ∈ ps, c ∈ p.segments) (h : c = s ∨ shares x ci s c = true) :
    StandsFor x ci ps s c := by
  rcases h with rfl | h
  · exact .inl rfl
  · have hk := shares_kind h
    refine .inr ⟨hc, hk, ?_⟩
    unfold shares at h
    rw [if_pos hk, hk] at h
    cases hs : s.kind <;> simp only [hs] at h <;> simp
    · cases ci <;> simp at h <;> simp [h]
    · simpa using h
    · cases ci <;> simp at h <;> simp [h]

/-- A pattern found, and the segments of the nodes it was found at. -/
theorem found_shared {x : Ext} {ci : Bool} {ps : List Pattern} {m : Matcher} (hr : Registered x ci sortSiblings ps m)
    {us : List Str} {p : Pattern} {ls : List MT} (h : answer (matchText x ci) m us = .found p ls) :
    p ∈ ps ∧ ∃ ts bs, All2 (StandsFor x ci ps) p.segments ts ∧ Layout x ci ts us bs ∧ ls = labelsOf p.segments bs := by
  have hh := holds sortSiblings_perm hr
  have hpiece := registered_piece hr
  have h' : (us = [] ∧ m.root = some p ∧ ls = []) ∨ (tryC (matchText x ci) 0 m.kids (m.kids.length % 65536) us).toM = .found p ls := by
    cases us with
    | nil =>
      cases hr : m.root with
      | none => exact .inr (by simpa [answer, hr] using h)
      | some q =>
        simp only [answer, hr, MRes.found.injEq] at h
        obtain ⟨rfl, rfl⟩ := h
        exact .inl ⟨rfl, rfl, rfl⟩
    | cons u us => exact .inr (by simpa [answer] using h)
  rcases h' with ⟨rfl, hq, rfl⟩ | h'
  · obtain ⟨h1, h2⟩ := hh.root p hq
    rw [h2]
    exact ⟨h1, [], [], .nil, ⟨.nil, rfl, by simp⟩, rfl⟩
  · cases ht : tryC (matchText x ci) 0 m.kids (m.kids.length % 65536) us with
    | found q l' =>
      rw [ht] at h'
      simp only [Res.toM, MRes.found.injEq] at h'
      obtain ⟨rfl, rfl⟩ := h'
      obtain ⟨l, bs, h1, _, h2⟩ := tryC_sound (fun _ _ _ => matchText_kind) (fun _ _ v h => matchText_star h v) _ m.kids (Nat.le_refl _) _ _ _ _ _ ht
      obtain ⟨h3, h4⟩ := hh.leaf l q h1
      have hon : All2 (fun (c : Segment) s => c = s ∨ shares x ci s c = true) (l.map (·.1)) q.segments := All2.map_left.2 h4
      have hnode : ∀ c ∈ l.map (·.1), ∃ p ∈ ps, c ∈ p.segments := by
        intro c hc
        obtain ⟨c', hc', rfl⟩ := List.mem_map.1 hc
        exact hh.nodes _ (has_of_leaf h1 c' hc')
      refine ⟨h3, l.map (·.1), bs, ?_, ⟨?_, h2.joined, ?_⟩, ?_⟩
      · exact hon.flip.imp fun s c _ hc h => standsFor_of (hnode c hc) h
      · refine h2.blocks.imp fun c b hc _ hcb => ⟨fun hk => hcb.2.1 hk, fun u hu => ?_⟩
        obtain ⟨p', hp', hc'⟩ := hnode c hc
        exact fit_of_match (hpiece p' hp' c hc') (hcb.2.2 u hu)
      · intro s hs hk
        exact h2.last s hs hk
      · rw [h2.labels]
        exact labelsOf_congr (hon.imp fun _ _ _ _ h => on_kind h) bs
    | next => rw [ht] at h'; cases h'
    | stop => rw [ht] at h'; cases h'
    | abort => rw [ht] at h'; cases h'
    | panic => rw [ht] at h'; cases h'

/-- C14 for all patterns: a pattern returned was registered, and the request is described once each of its segments is replaced by one that stands
for it. -/
theorem c14_stands {x : Ext} {ci : Bool} {ps : List Pattern} {m : Matcher} (hr : Registered x ci sortSiblings ps m)
    {path : Str} {buf : List USeg} (hb : buf.length = 19) (hlen : path.length ≤ 65535) (hf : Fits path)
    {fuel : Nat} {p : Pattern} {labels : List MT} (h : lookup x ci m path buf fuel = some (.found p labels)) :
    p ∈ ps ∧ ∃ ts, All2 (StandsFor x ci ps) p.segments ts ∧ Describes x ci ts (segmentsOf path) := by
  have h := lookup_result hb hlen h
  obtain ⟨h1, ts, bs, h2, h3, _⟩ := found_shared hr h.symm
  rw [requestOf_fits hf] at h3
  exact ⟨h1, ts, h2, bs, h3⟩

theorem constraint_brace {ci : Bool} {s : Segment} (hs : Piece ci s.val s) (hk : s.kind = .constraint) : s.val.head? = some 123 := by
  generalize hv : s.val = v at hs
  cases hs <;> simp at hk
  simp

theorem constraint_ci {s : Segment} (hs : Piece true s.val s) (hk : s.kind = .constraint) {t : Str} (h : s.re = some t) : t.head? ≠ some 123 := by
  generalize hv : s.val = v at hs
  cases hs <;> simp at hk h
  rw [← h]
  simp

/-- C14, what goes wrong: a pattern returned that does not describe the request has a constrained variable whose expression is the whole text of a
constrained variable of a registered pattern, and a segment of the request is accepted by that one instead of by its own expression; or, when the case
of letters is ignored, a wildcard was replaced by one with the same text up to the case of non-ASCII letters. -/
theorem c14_culprit {x : Ext} {ci : Bool} (hl : FoldLaws x.eqFold) {ps : List Pattern} {m : Matcher} (hr : Registered x ci sortSiblings ps m)
    {path : Str} {buf : List USeg} (hb : buf.length = 19) (hlen : path.length ≤ 65535) (hf : Fits path)
    {fuel : Nat} {p : Pattern} {labels : List MT} (h : lookup x ci m path buf fuel = some (.found p labels))
    (hnot : ¬ Describes x ci p.segments (segmentsOf path)) :
    ∃ s ∈ p.segments, ∃ q ∈ ps, ∃ t ∈ q.segments, ∃ u ∈ segmentsOf path, Fit x ci t u ∧ ¬ Fit x ci s u ∧
      ((ci = false ∧ s.kind = .constraint ∧ t.kind = .constraint ∧ s.re = some t.val) ∨
        (ci = true ∧ s.kind = .regex ∧ t.kind = .regex ∧ x.eqFold s.val t.val = true ∧ ¬ (Ascii s.val ∧ Ascii t.val))) := by
  obtain ⟨hp, ts, h2, bs, h3⟩ := c14_stands hr hb hlen hf h
  have hpiece := registered_piece hr
  apply Classical.byContradiction
  intro hno
  refine hnot ⟨bs, ?_, h3.joined, ?_⟩
  · refine all2_trans h2.flip h3.parts fun t s b ht hs hbm hst htb => ?_
    have hkind : t.kind = s.kind := by
      rcases hst with rfl | ⟨_, h, _⟩
      · rfl
      · exact h
    refine ⟨fun hk => htb.1 (by rw [hkind]; exact hk), fun u hu => Classical.byContradiction fun hn => hno ?_⟩
    have hfit := htb.2 u hu
    have hus : u ∈ segmentsOf path := by rw [← h3.joined]; exact List.mem_flatten.2 ⟨b, hbm, hu⟩
    rcases hst with rfl | ⟨⟨q, hq, htq⟩, _, h4, h5⟩
    · exact absurd hfit hn
    · refine ⟨s, hs, q, hq, t, htq, u, hus, hfit, hn, ?_⟩
      unfold Fit at hfit hn
      rw [hkind] at hfit
      cases hk : s.kind <;> simp only [hk] at hfit hn h4 h5
      · refine absurd ?_ hn
        rcases h4 (.inl trivial) with e | ⟨e, e'⟩
        · rw [e]; exact hfit
        · rcases hfit with rfl | ⟨_, hfit⟩
          · exact .inr ⟨e, hl.symm _ _ e'⟩
          · exact .inr ⟨e, hl.trans _ _ _ hfit (hl.symm _ _ e')⟩
      · left
        have e := h5 trivial
        refine ⟨?_, rfl, by rw [hkind, hk], e⟩
        cases ci with
        | false => rfl
        | true => exact absurd (constraint_brace (hpiece q hq t htq) (by rw [hkind, hk])) (constraint_ci (hpiece p hp s hs) hk e)
      · exact absurd trivial hn
      · rcases h4 (.inr trivial) with e | ⟨e, e'⟩
        · rw [e] at hn; exact absurd hfit hn
        · subst e
          refine .inr ⟨rfl, rfl, by rw [hkind, hk], e', fun ⟨a, b⟩ => hn ?_⟩
          exact glob_congr hfit (hl.ascii _ _ a b e')
      · exact absurd trivial hn
      · exact absurd trivial hn
  · intro s hs hk
    obtain ⟨t, ht, hst⟩ := all2_getLast h2.flip hs
    refine h3.last t ht ?_
    rcases hst with rfl | ⟨_, h, _⟩
    · exact hk
    · rw [h]; exact hk

/-- C14 for a pattern of this form, whatever other patterns there are. -/
theorem c14_own_partial {x : Ext} {ci : Bool} (hl : FoldLaws x.eqFold) {ps : List Pattern} {m : Matcher} (hr : Registered x ci sortSiblings ps m)
    {path : Str} {buf : List USeg} (hb : buf.length = 19) (hlen : path.length ≤ 65535) (hf : Fits path)
    {fuel : Nat} {p : Pattern} {labels : List MT} (h : lookup x ci m path buf fuel = some (.found p labels)) (hown : OwnSegments ci p.segments) :
    p ∈ ps ∧ Describes x ci p.segments (segmentsOf path) := by
  refine ⟨(c14_stands hr hb hlen hf h).1, Classical.byContradiction fun hn => ?_⟩
  obtain ⟨s, hs, q, hq, t, ht, u, _, _, _, ⟨rfl, h1, h2, h3⟩ | ⟨rfl, h1, _⟩⟩ := c14_culprit hl hr hb hlen hf h hn
  · exact (hown s hs).1 h1 rfl _ h3 (constraint_brace (registered_piece hr q hq t ht) h2)
  · cases (hown s hs).2 h1

/-- C15 for all patterns: the variables of the pattern returned carry the texts that lie under the segments standing for them. -/
theorem c15_stands {x : Ext} {ci : Bool} {ps : List Pattern} {m : Matcher} (hr : Registered x ci sortSiblings ps m)
    {path : Str} {buf : List USeg} (hb : buf.length = 19) (hlen : path.length ≤ 65535) (hf : Fits path)
    {fuel : Nat} {p : Pattern} {labels : List MT} (h : lookup x ci m path buf fuel = some (.found p labels))
    (hpieces : (pieces p.raw).length < 256) :
    ∃ segs ts bs, parseURLPath path buf = some segs ∧ All2 (StandsFor x ci ps) p.segments ts ∧ Layout x ci ts (segmentsOf path) bs ∧
      ∀ name, pathVarText path p labels segs name = some ((valueIn name p.segments bs).getD []) := by
  have h := lookup_result hb hlen h
  obtain ⟨h1, ts, bs, h2, h3, hlab⟩ := found_shared hr h.symm
  obtain ⟨segs, e3, e4, _⟩ := parse_texts path buf hb hlen
  rw [requestOf_fits hf] at h3 e4
  refine ⟨segs, ts, bs, e3, h2, h3, variables_of hr e4 h1 ?_ h3.joined hlab hpieces⟩
  refine all2_trans h2.flip h3.parts fun t s b _ _ _ hst htb hk => htb.1 ?_
  rcases hst with rfl | ⟨_, h, _⟩
  · exact hk
  · rw [h]; exact hk

/-- A layout of segments that stand for those of a pattern of this form is one of the pattern itself. -/
theorem layout_own {x : Ext} {ci : Bool} (hl : FoldLaws x.eqFold) {ps : List Pattern} (hpiece : ∀ p ∈ ps, ∀ s ∈ p.segments, Piece ci s.val s)
    {ss ts : List Segment} (hps : ∀ s ∈ ss, Piece ci s.val s) (hown : OwnSegments ci ss) (h : All2 (StandsFor x ci ps) ss ts) {us : List Str} {bs : List (List Str)} (hlay : Layout x ci ts us bs) :
    Layout x ci ss us bs := by
  refine ⟨all2_trans h.flip hlay.parts fun t s b ht hs hbm hst htb => ?_, hlay.joined, fun s hs hk => ?_⟩
  · have hkind : t.kind = s.kind := by
      rcases hst with rfl | ⟨_, h, _⟩
      · rfl
      · exact h
    refine ⟨fun hk => htb.1 (by rw [hkind]; exact hk), fun u hu => ?_⟩
    have hfit := htb.2 u hu
    rcases hst with rfl | ⟨⟨q, hq, htq⟩, _, h4, h5⟩
    · exact hfit
    · obtain ⟨o1, o2⟩ := hown s hs
      unfold Fit at hfit ⊢
      rw [hkind] at hfit
      cases hk : s.kind <;> simp only [hk] at hfit h4 h5 ⊢
      · rcases h4 (.inl trivial) with e | ⟨e, e'⟩
        · rw [e]; exact hfit
        · rcases hfit with rfl | ⟨_, hfit⟩
          · exact .inr ⟨e, hl.symm _ _ e'⟩
          · exact .inr ⟨e, hl.trans _ _ _ hfit (hl.symm _ _ e')⟩
      · have e := h5 trivial
        have hb := constraint_brace (hpiece q hq t htq) (by rw [hkind, hk])
        cases ci with
        | false => exact absurd hb (o1 hk rfl _ e)
        | true => exact absurd hb (constraint_ci (hps s hs) hk e)
      · have := o2 hk
        subst this
        rcases h4 (.inr trivial) with e | ⟨e, _⟩
        · rw [e]; exact hfit
        · cases e
  · obtain ⟨t, ht, hst⟩ := all2_getLast h.flip hs
    refine hlay.last t ht ?_
    rcases hst with rfl | ⟨_, h, _⟩
    · exact hk
    · rw [h]; exact hk

/-- C15 for such a pattern, whatever other patterns there are. -/
theorem c15_own_partial {x : Ext} {ci : Bool} (hl : FoldLaws x.eqFold) {ps : List Pattern} {m : Matcher} (hr : Registered x ci sortSiblings ps m)
    {path : Str} {buf : List USeg} (hb : buf.length = 19) (hlen : path.length ≤ 65535) (hf : Fits path)
    {fuel : Nat} {p : Pattern} {labels : List MT} (h : lookup x ci m path buf fuel = some (.found p labels)) (hown : OwnSegments ci p.segments)
    (hpieces : (pieces p.raw).length < 256) :
    ∃ segs bs, parseURLPath path buf = some segs ∧ Layout x ci p.segments (segmentsOf path) bs ∧
      ∀ name, pathVarText path p labels segs name = some ((valueIn name p.segments bs).getD []) := by
  obtain ⟨segs, ts, bs, h1, h2, h3, h4⟩ := c15_stands hr hb hlen hf h hpieces
  exact ⟨segs, bs, h1, layout_own hl (registered_piece hr) (registered_piece hr p (c14_stands hr hb hlen hf h).1) hown h2 h3, h4⟩

/-- C22 for all patterns: a refused pattern and a registered one can be replaced by the same segments, and every constrained variable of the refused
pattern has the whole text of a constrained variable of a registered one as its expression. -/
theorem c22_stands {x : Ext} {ci : Bool} {ps : List Pattern} {m : Matcher} (hr : Registered x ci sortSiblings ps m) {raw : Str} {p : Pattern}
    (hp : parsePattern x ci raw = .ok p) (a : Nat) {m' : Matcher} (h : addPattern x ci sortSiblings m { p with attachment := a } = (m', true)) :
    (∃ q ∈ ps, ∃ ts, All2 (StandsFor x ci ps) p.segments ts ∧ All2 (StandsFor x ci ps) q.segments ts) ∧
      ∀ s ∈ p.segments, s.kind = .constraint → ci = false ∧ ∃ q ∈ ps, ∃ t ∈ q.segments, t.kind = .constraint ∧ s.re = some t.val := by
  have hh := holds sortSiblings_perm hr
  have h2 : (addPattern x ci sortSiblings m { p with attachment := a }).2 = true := by rw [h]
  unfold addPattern at h2
  simp only at h2
  cases hseg : p.segments with
  | nil =>
    rw [hseg] at h2
    refine ⟨?_, nofun⟩
    cases hroot : m.root with
    | none => rw [hroot] at h2; cases h2
    | some q =>
      obtain ⟨g1, g2⟩ := hh.root q hroot
      exact ⟨q, g1, [], .nil, by rw [g2]; exact .nil⟩
  | cons s ss =>
    rw [hseg] at h2
    simp only at h2
    obtain ⟨l, q, h3, h4⟩ := insert_err _ _ _ _ h2
    obtain ⟨h5, h6⟩ := hh.leaf l q h3
    have hnode : ∀ c ∈ l, ∃ p ∈ ps, c.1 ∈ p.segments := fun c hc => hh.nodes _ (has_of_leaf h3 c hc)
    have hnode' : ∀ c ∈ l.map (·.1), ∃ p ∈ ps, c ∈ p.segments := by
      intro c hc
      obtain ⟨c', hc', rfl⟩ := List.mem_map.1 hc
      exact hnode c' hc'
    rw [← hseg] at h4 ⊢
    have on1 : All2 (fun (c : Segment) s => shares x ci s c = true) (l.map (·.1)) p.segments := All2.map_left.2 h4
    have on2 : All2 (fun (c : Segment) s => c = s ∨ shares x ci s c = true) (l.map (·.1)) q.segments := All2.map_left.2 h6
    refine ⟨⟨q, h5, l.map (·.1), on1.flip.imp fun s c _ hc h => standsFor_of (hnode' c hc) (.inr h),
      on2.flip.imp fun s c _ hc h => standsFor_of (hnode' c hc) h⟩, ?_⟩
    intro t ht hk
    obtain ⟨c, hc, hs⟩ := on1.mem_right ht
    obtain ⟨q', hq', hcq⟩ := hnode' c hc
    have hkc := shares_kind hs
    have hre : t.re = some c.val := by
      unfold shares at hs
      rw [if_pos hkc, hkc, hk] at hs
      simpa using hs
    refine ⟨?_, q', hq', c, hcq, by rw [hkc, hk], hre⟩
    cases ci with
    | false => rfl
    | true =>
      exact absurd (constraint_brace (registered_piece hr q' hq' c hcq) (by rw [hkc, hk])) (constraint_ci (c06_classified x true raw p hp t ht).2.1 hk hre)

/-- The hypotheses of the four theorems hold for patterns of which one constrained variable stands for another: `/b/q` is answered by the second pattern,
which does not describe it, with `x` the text `b`. -/
example : ∃ ps m p labels, Registered plainExt false sortSiblings ps m ∧ Fits b!"/b/q" ∧
    lookup plainExt false m b!"/b/q" freshBuf 10 = some (.found p labels) ∧ (pieces p.raw).length < 256 ∧
    ¬ Describes plainExt false p.segments (segmentsOf b!"/b/q") ∧
    pathVarText b!"/b/q" p labels [⟨1, 2⟩, ⟨3, 4⟩] b!"x" = some b!"b" := by
  obtain ⟨ps, m, h1, h2, h3⟩ := checked_spec (x := plainExt) (ci := false) (l := [(b!"/{x:{a:b}}/q", 2), (b!"/{a:b}/p", 1)])
    (f := fun ps => ps.contains (patOf plainExt false b!"/{x:{a:b}}/q" 2)) (by decide +kernel)
  refine ⟨ps, m, patOf plainExt false b!"/{x:{a:b}}/q" 2, [.constraint, .literal], h1, fits_of_peak _ (by decide), (h3 _ _ _).symm.trans (by decide +kernel),
    by decide +kernel, ?_, by decide +kernel⟩
  have hseg : (patOf plainExt false b!"/{x:{a:b}}/q" 2).segments =
      [{ val := b!"{x:{a:b}}", kind := .constraint, varName := b!"x", re := some b!"{a:b}" }, { val := b!"q", kind := .literal }] := by decide +kernel
  rw [hseg]
  intro h
  obtain ⟨u, vs, h1, h2, _⟩ := (describes_one (by decide)).1 h
  obtain ⟨rfl, rfl⟩ : b!"b" = u ∧ [b!"q"] = vs := by
    have : segmentsOf b!"/b/q" = [b!"b", b!"q"] := by decide
    rw [this] at h1
    simpa using h1
  obtain ⟨src, h3, h4⟩ := h2
  cases h3
  revert h4
  decide

/-- A pattern for which no others stand, beside such. -/
example : ∃ ps m p labels, Registered plainExt false sortSiblings ps m ∧ Fits b!"/b/r.c" ∧
    lookup plainExt false m b!"/b/r.c" freshBuf 10 = some (.found p labels) ∧ (pieces p.raw).length < 256 ∧ OwnSegments false p.segments ∧
    ∃ q ∈ ps, ¬ OwnSegments false q.segments := by
  obtain ⟨ps, m, h1, h2, h3⟩ := checked_spec (x := plainExt) (ci := false) (l := [(b!"/{x}/?.c", 3), (b!"/{x:{a:b}}/q", 2), (b!"/{a:b}/p", 1)])
    (f := fun ps => ps.contains (patOf plainExt false b!"/{x:{a:b}}/q" 2)) (by decide +kernel)
  have hs : (patOf plainExt false b!"/{x}/?.c" 3).segments =
      [{ val := b!"{x}", kind := .capture, varName := b!"x" }, { val := b!"?.c", kind := .regex }] := by decide +kernel
  have ht : (patOf plainExt false b!"/{x:{a:b}}/q" 2).segments =
      [{ val := b!"{x:{a:b}}", kind := .constraint, varName := b!"x", re := some b!"{a:b}" }, { val := b!"q", kind := .literal }] := by decide +kernel
  refine ⟨ps, m, patOf plainExt false b!"/{x}/?.c" 3, [.capture, .regex], h1, fits_of_peak _ (by decide), (h3 _ _ _).symm.trans (by decide +kernel),
    by decide +kernel, ?_, _, by simpa using h2, ?_⟩
  · rw [hs]
    intro s h
    simp at h
    rcases h with rfl | rfl <;> exact ⟨fun h => by simp at h, fun _ => rfl⟩
  · rw [ht]
    intro h
    exact (h _ List.mem_cons_self).1 rfl rfl _ rfl rfl

/-- A refused pattern with a constrained variable. -/
example : ∃ ps m m' p, Registered plainExt false sortSiblings ps m ∧ parsePattern plainExt false b!"/{x:{a:b}}" = .ok p ∧
    addPattern plainExt false sortSiblings m { p with attachment := 0 } = (m', true) ∧ ∃ s ∈ p.segments, s.kind = .constraint := by
  obtain ⟨ps, m, m', p, h1, h2, _, h4⟩ := c22_violated
  refine ⟨ps, m, m', p, h1, h2, ?_, ?_⟩
  · have : p = { p with attachment := 0 } := by
      have e : parsePattern plainExt false b!"/{x:{a:b}}" = .ok (patOf plainExt false b!"/{x:{a:b}}" 0) := by decide +kernel
      rw [e, PRes.ok.injEq] at h2
      rw [← h2]
      decide +kernel
    rw [← this]
    exact h4
  · have e : parsePattern plainExt false b!"/{x:{a:b}}" = .ok (patOf plainExt false b!"/{x:{a:b}}" 0) := by decide +kernel
    rw [e, PRes.ok.injEq] at h2
    rw [← h2]
    decide +kernel

end Gofre.Props
