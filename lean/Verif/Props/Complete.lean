import Verif.Proofs.Unique

/-!
# Theorems about matching requests: which pattern answers

Properties C18, C19, C20, C21, C22, C23.
-/

namespace Gofre.Props
open Gofre.Path Gofre.Spec

/-! ### C18 -/

/-- C18 fails: with `/a/b` and `/{x}` registered, the request `/a` is not served. -/
theorem c18_violated : ∃ ps m p fuel, Registered plainExt false sortSiblings ps m ∧ p ∈ ps ∧
    Describes plainExt false p.segments (segmentsOf b!"/a") ∧ lookup plainExt false m b!"/a" freshBuf fuel = some .none := by
  obtain ⟨ps, m, h1, h2, h3⟩ := checked_spec (x := plainExt) (ci := false) (l := [(b!"/{x}", 2), (b!"/a/b", 1)])
    (f := fun ps => ps.contains (patOf plainExt false b!"/{x}" 2)) (by decide +kernel)
  refine ⟨ps, m, patOf plainExt false b!"/{x}" 2, 10, h1, by simpa using h2, ?_, (h3 _ _ _).symm.trans (by decide +kernel)⟩
  have hseg : (patOf plainExt false b!"/{x}" 2).segments = [{ val := b!"{x}", kind := .capture, varName := b!"x" }] := by decide +kernel
  rw [hseg]
  exact (describes_one (by decide)).2 ⟨b!"a", [], by decide, trivial, describes_nil.2 rfl⟩

/-- C18 fails with a `**` in the middle: with `/a/**/b` and `/{x}/{y}` registered, the request `/a/c` is not served. -/
theorem c18_violated_stars : ∃ ps m p fuel, Registered plainExt false sortSiblings ps m ∧ p ∈ ps ∧
    Describes plainExt false p.segments (segmentsOf b!"/a/c") ∧ lookup plainExt false m b!"/a/c" freshBuf fuel = some .none := by
  obtain ⟨ps, m, h1, h2, h3⟩ := checked_spec (x := plainExt) (ci := false) (l := [(b!"/{x}/{y}", 2), (b!"/a/**/b", 1)])
    (f := fun ps => ps.contains (patOf plainExt false b!"/{x}/{y}" 2)) (by decide +kernel)
  refine ⟨ps, m, patOf plainExt false b!"/{x}/{y}" 2, 10, h1, by simpa using h2, ?_, (h3 _ _ _).symm.trans (by decide +kernel)⟩
  have hseg : (patOf plainExt false b!"/{x}/{y}" 2).segments =
      [{ val := b!"{x}", kind := .capture, varName := b!"x" }, { val := b!"{y}", kind := .capture, varName := b!"y" }] := by decide +kernel
  rw [hseg]
  exact (describes_one (by decide)).2 ⟨b!"a", [b!"c"], by decide, trivial, (describes_one (by decide)).2 ⟨b!"c", [], rfl, trivial, describes_nil.2 rfl⟩⟩

theorem describes_root {x : Ext} {ci : Bool} {ss : List Segment} (hst : StarsLast ss) (h : Describes x ci ss []) : ss = [] := by
  cases ss with
  | nil => rfl
  | cons s ss =>
    by_cases hs : s.kind = .multiple
    · have := hst [] s ss rfl hs
      subst this
      obtain ⟨vs, ws, h1, h2, _⟩ := (describes_star hs).1 h
      have : vs = [] := by
        have := congrArg List.length h1
        simp at this
        exact List.eq_nil_of_length_eq_zero (by omega)
      exact absurd this (h2 rfl)
    · obtain ⟨_, _, h1, _⟩ := (describes_one hs).1 h
      cases h1

/-- C18: a request described by a registered pattern is served, provided that `**` only ends
patterns, no beginning of a registered pattern describes the whole request, and the wildcards are
compared exactly. -/
theorem c18_served_partial {x : Ext} {ci : Bool} (hl : FoldLaws x.eqFold)
    {ps : List Pattern} {m : Matcher} (hr : Registered x ci sortSiblings ps m) (hplain : ∀ p ∈ ps, ∀ s ∈ p.segments, Plain ci s)
    (hfew : ps.length < 65536) (hlong : ∀ p ∈ ps, (pieces p.raw).length < 256) (hstars : ∀ p ∈ ps, StarsLast p.segments)
    {path : Str} {buf : List USeg} (hb : buf.length = 19) (hlen : path.length ≤ 65535) (hf : Fits path)
    (hfaith : Faithful ci ps (segmentsOf path))
    (hpre : ∀ p ∈ ps, ∀ k, 0 < k → k < p.segments.length → ¬ Describes x ci (p.segments.take k) (segmentsOf path))
    {p : Pattern} (hp : p ∈ ps) (hd : Describes x ci p.segments (segmentsOf path)) :
    ∃ f q labels, q ∈ ps ∧ ∀ g, f ≤ g → lookup x ci m path buf g = some (.found q labels) := by
  obtain ⟨f, hfu⟩ := lookup_eq x ci m path buf hb hlen
  rw [requestOf_fits hf] at hfu
  have h19 : (segmentsOf path).length ≤ 19 := hf _ (List.prefix_refl _)
  by_cases hne : segmentsOf path = []
  · rw [hne] at hd hfu
    have h0 := describes_root (hstars p hp) hd
    have hroot := (holds sortSiblings_perm hr).rootAdded p hp h0
    refine ⟨f, p, [], hp, fun g hg => ?_⟩
    rw [hfu g hg]
    simp [answer, hroot]
  · rcases answer_best (A := False) hl sortSiblings_perm hr hplain hfew hstars hlong False.elim False.elim False.elim h19 hfaith hpre hne with
      ⟨q, ls, h1, h2, _⟩ | ⟨_, h2⟩
    · exact ⟨f, q, ls, h2, fun g hg => by rw [hfu g hg, h1]⟩
    · exact absurd hd (h2 p hp)

/-! ### C19 -/

/-- C19 fails: with `/a/b/x`, `/a/{y}` and `/{z}/b` registered, the request `/a/b` is answered by
`/{z}/b`, although `/a/{y}` describes it and is more specific. -/
theorem c19_violated : ∃ ps m p q labels fuel, Registered plainExt false sortSiblings ps m ∧ p ∈ ps ∧ q ∈ ps ∧
    Describes plainExt false q.segments (segmentsOf b!"/a/b") ∧ lookup plainExt false m b!"/a/b" freshBuf fuel = some (.found p labels) ∧
    ¬ MoreSpecific (p.segments.map (·.kind)) (q.segments.map (·.kind)) := by
  obtain ⟨ps, m, h1, h2, h3⟩ := checked_spec (x := plainExt) (ci := false) (l := [(b!"/{z}/b", 3), (b!"/a/{y}", 2), (b!"/a/b/x", 1)])
    (f := fun ps => ps.contains (patOf plainExt false b!"/{z}/b" 3) && ps.contains (patOf plainExt false b!"/a/{y}" 2)) (by decide +kernel)
  simp only [Bool.and_eq_true, List.contains_iff_mem] at h2
  refine ⟨ps, m, patOf plainExt false b!"/{z}/b" 3, patOf plainExt false b!"/a/{y}" 2, [.capture, .literal], 10, h1, h2.1, h2.2, ?_,
    (h3 _ _ _).symm.trans (by decide +kernel), ?_⟩
  · have hseg : (patOf plainExt false b!"/a/{y}" 2).segments =
        [{ val := b!"a", kind := .literal }, { val := b!"{y}", kind := .capture, varName := b!"y" }] := by decide +kernel
    rw [hseg]
    exact (describes_one (by decide)).2 ⟨b!"a", [b!"b"], by decide, .inl rfl, (describes_one (by decide)).2 ⟨b!"b", [], rfl, trivial, describes_nil.2 rfl⟩⟩
  · intro h
    have := h 0 .capture .literal rfl (by decide +kernel) (by decide +kernel)
    exact absurd this (by decide)

/-- C19 fails with overlapping wildcards: with `/a*/{q}`, `/a*/z` and `/*b/{q}` registered in one
order the request `/ab/z` is answered by `/a*/z`, in another order by `/*b/{q}`. -/
theorem c19_violated_wildcards :
    served plainExt false [(b!"/*b/{q}", 3), (b!"/a*/{q}", 1), (b!"/a*/z", 2)] b!"/ab/z" freshBuf 10 =
      some (.found (patOf plainExt false b!"/a*/z" 2) [.regex, .literal]) ∧
    served plainExt false [(b!"/*b/{q}", 3), (b!"/a*/z", 2), (b!"/a*/{q}", 1)] b!"/ab/z" freshBuf 10 =
      some (.found (patOf plainExt false b!"/*b/{q}" 3) [.regex, .capture]) := by decide +kernel

/-- C19: the answer is the most specific of the registered patterns describing the request, under
the conditions of C18, for patterns of at most 19 segments, when different wildcards do not
compete for a request segment. -/
theorem c19_most_specific_partial {x : Ext} {ci : Bool} (hl : FoldLaws x.eqFold)
    {ps : List Pattern} {m : Matcher} (hr : Registered x ci sortSiblings ps m) (hplain : ∀ p ∈ ps, ∀ s ∈ p.segments, Plain ci s)
    (hfew : ps.length < 65536) (hshort : ∀ p ∈ ps, (pieces p.raw).length ≤ 19) (hstars : ∀ p ∈ ps, StarsLast p.segments)
    {path : Str} {buf : List USeg} (hb : buf.length = 19) (hlen : path.length ≤ 65535) (hf : Fits path)
    (hfaith : Faithful ci ps (segmentsOf path)) (hset : Settled x ci ps (segmentsOf path))
    (hpre : ∀ p ∈ ps, ∀ k, 0 < k → k < p.segments.length → ¬ Describes x ci (p.segments.take k) (segmentsOf path))
    {fuel : Nat} {p : Pattern} {labels : List MT} (h : lookup x ci m path buf fuel = some (.found p labels))
    {q : Pattern} (hq : q ∈ ps) (hd : Describes x ci q.segments (segmentsOf path)) :
    MoreSpecific (p.segments.map (·.kind)) (q.segments.map (·.kind)) := by
  have h19 : (segmentsOf path).length ≤ 19 := hf _ (List.prefix_refl _)
  have h := lookup_result hb hlen h
  rw [requestOf_fits hf] at h
  by_cases hne : segmentsOf path = []
  · rw [hne] at hd
    rw [describes_root (hstars q hq) hd]
    intro i k k' _ _ h
    simp at h
  · rcases answer_best (A := True) hl sortSiblings_perm hr hplain hfew hstars (fun p hp => by have := hshort p hp; omega) (fun _ => sortSiblings_sorted) (fun _ => hshort)
      (fun _ => hset) h19 hfaith hpre hne with ⟨p', ls, h1, h2, h3⟩ | ⟨h1, _⟩
    · rw [h1] at h
      simp only [MRes.found.injEq] at h
      rw [h.1]
      exact h3 trivial q hq hd
    · rw [h1] at h; cases h

/-! ### C20 -/

theorem same_kinds {x : Ext} {ci : Bool} : ∀ {ss ts : List Segment} {us : List Str}, StarsLast ss → StarsLast ts → Describes x ci ss us → Describes x ci ts us →
    MoreSpecific (ss.map (·.kind)) (ts.map (·.kind)) → MoreSpecific (ts.map (·.kind)) (ss.map (·.kind)) →
    All2 (fun s t => s.kind = t.kind ∧ ∃ u ∈ us, Fit x ci s u ∧ Fit x ci t u) ss ts := by
  intro ss
  induction ss with
  | nil =>
    intro ts us _ h2 h3 h4 _ _
    rw [describes_nil] at h3
    subst h3
    rw [describes_root h2 h4]
    exact .nil
  | cons s ss ih =>
    intro ts us h1 h2 h3 h4 h5 h6
    cases ts with
    | nil =>
      rw [describes_nil] at h4
      subst h4
      have := describes_root h1 h3
      cases this
    | cons t ts =>
      have hk : s.kind = t.kind := by
        have a := h5 0 s.kind t.kind rfl rfl rfl
        have b := h6 0 t.kind s.kind rfl rfl rfl
        revert a b
        cases s.kind <;> cases t.kind <;> simp [rank]
      by_cases hs : s.kind = .multiple
      · have ht : t.kind = .multiple := by rw [← hk]; exact hs
        have e1 := h1 [] s ss rfl hs
        have e2 := h2 [] t ts rfl ht
        subst e1
        subst e2
        obtain ⟨vs, ws, rfl, h7, _⟩ := (describes_star hs).1 h3
        cases vs with
        | nil => exact absurd rfl (h7 rfl)
        | cons u vs => exact .cons ⟨hk, u, by simp, by simp [Fit, hs], by simp [Fit, ht]⟩ .nil
      · have ht : t.kind ≠ .multiple := by rw [← hk]; exact hs
        obtain ⟨u, vs, rfl, f1, d1⟩ := (describes_one hs).1 h3
        obtain ⟨u', vs', e, f2, d2⟩ := (describes_one ht).1 h4
        simp only [List.cons.injEq] at e
        obtain ⟨rfl, rfl⟩ := e
        simp only [List.map_cons, hk] at h5 h6
        refine .cons ⟨hk, u, by simp, f1, f2⟩ ?_
        refine (ih (StarsLast.tail h1) (StarsLast.tail h2) d1 d2 (more_specific_drop (pre := [t.kind]) h5) (more_specific_drop (pre := [t.kind]) h6)).imp ?_
        rintro a b _ _ ⟨g1, w, g2, g3⟩
        exact ⟨g1, w, by simp [g2], g3⟩

theorem layout_unique {x : Ext} {ci : Bool} : ∀ {ss : List Segment} {us : List Str} {bs bs' : List (List Str)}, StarsLast ss →
    Layout x ci ss us bs → Layout x ci ss us bs' → bs = bs' := by
  intro ss
  induction ss with
  | nil => intro us bs bs' _ h h'; cases h.parts; cases h'.parts; rfl
  | cons s ss ih =>
    intro us bs bs' hst h h'
    obtain ⟨p1, j1, l1⟩ := h
    obtain ⟨p2, j2, l2⟩ := h'
    cases p1 with
    | @cons _ b _ bs r1 t1 =>
      cases p2 with
      | @cons _ b' _ bs' r2 t2 =>
        by_cases hs : s.kind = .multiple
        · have := hst [] s ss rfl hs
          subst this
          cases t1
          cases t2
          simp at j1 j2
          rw [j1, j2]
        · obtain ⟨u, rfl⟩ := List.length_eq_one_iff.1 (r1.1 hs)
          obtain ⟨u', rfl⟩ := List.length_eq_one_iff.1 (r2.1 hs)
          rw [← j2] at j1
          simp at j1
          obtain ⟨rfl, hj⟩ := j1
          have hlast : ∀ (b : Str) (cs : List (List Str)), All2 (fun s (b : List Str) => (s.kind ≠ .multiple → b.length = 1) ∧ ∀ u ∈ b, Fit x ci s u) ss cs →
              (∀ t, (s :: ss).getLast? = some t → t.kind = .multiple → ([b] :: cs).getLast? ≠ some []) →
              ∀ t, ss.getLast? = some t → t.kind = .multiple → cs.getLast? ≠ some [] := by
            intro b cs hc hlst t ht hk
            cases hc with
            | nil => simp at ht
            | cons _ _ =>
              have := hlst t (by rw [List.getLast?_cons_cons]; exact ht) hk
              rw [List.getLast?_cons_cons] at this
              exact this
          rw [ih (StarsLast.tail hst) (us := bs.flatten) ⟨t1, rfl, hlast u bs t1 l1⟩ ⟨t2, hj.symm, hlast u bs' t2 l2⟩]

/-- C20 fails: see `c19_violated_wildcards`, where the same three patterns in two orders answer the
same request differently. -/
theorem c20_violated : ∃ ps ps' m m' p p' labels labels' fuel, Registered plainExt false sortSiblings ps m ∧
    Registered plainExt false sortSiblings ps' m' ∧ ps.Perm ps' ∧
    lookup plainExt false m b!"/ab/z" freshBuf fuel = some (.found p labels) ∧
    lookup plainExt false m' b!"/ab/z" freshBuf fuel = some (.found p' labels') ∧ p ≠ p' := by
  obtain ⟨ps, m, h1, h2, h3⟩ := checked_spec (x := plainExt) (ci := false) (l := [(b!"/*b/{q}", 3), (b!"/a*/{q}", 1), (b!"/a*/z", 2)])
    (f := fun ps => ps == [patOf plainExt false b!"/*b/{q}" 3, patOf plainExt false b!"/a*/{q}" 1, patOf plainExt false b!"/a*/z" 2]) (by decide +kernel)
  obtain ⟨ps', m', h1', h2', h3'⟩ := checked_spec (x := plainExt) (ci := false) (l := [(b!"/*b/{q}", 3), (b!"/a*/z", 2), (b!"/a*/{q}", 1)])
    (f := fun ps => ps == [patOf plainExt false b!"/*b/{q}" 3, patOf plainExt false b!"/a*/z" 2, patOf plainExt false b!"/a*/{q}" 1]) (by decide +kernel)
  rw [beq_iff_eq] at h2 h2'
  refine ⟨ps, ps', m, m', patOf plainExt false b!"/a*/z" 2, patOf plainExt false b!"/*b/{q}" 3, [.regex, .literal], [.regex, .capture], 10, h1, h1', ?_,
    (h3 _ _ _).symm.trans c19_violated_wildcards.1, (h3' _ _ _).symm.trans c19_violated_wildcards.2, by decide +kernel⟩
  rw [h2, h2']
  exact (List.Perm.swap _ _ _).cons _

/-- Two orders of registration answer with the same pattern when their answers are equally specific. -/
theorem answers_agree {x : Ext} {ci : Bool} (hl : FoldLaws x.eqFold)
    {ps ps' : List Pattern} {m m' : Matcher} (hr : Registered x ci sortSiblings ps m) (hr' : Registered x ci sortSiblings ps' m') (hperm : ps.Perm ps')
    (hplain : ∀ p ∈ ps, ∀ s ∈ p.segments, Plain ci s) (hstars : ∀ p ∈ ps, StarsLast p.segments)
    {us : List Str} (hset : Settled x ci ps us)
    (hcon : ∀ p ∈ ps, ∀ q ∈ ps, ∀ s ∈ p.segments, ∀ t ∈ q.segments, s.kind = .constraint → t.kind = .constraint → ∀ u ∈ us,
      Fit x ci s u → Fit x ci t u → p = q) (hne : us ≠ []) {p p' : Pattern} {ls ls' : List MT}
    (a1 : answer (matchText x ci) m us = .found p ls) (b1 : answer (matchText x ci) m' us = .found p' ls')
    (a2 : p ∈ ps) (b2 : p' ∈ ps') (a3 : MoreSpecific (p.segments.map (·.kind)) (p'.segments.map (·.kind)))
    (b3 : MoreSpecific (p'.segments.map (·.kind)) (p.segments.map (·.kind))) :
    MRes.found p ls = MRes.found p' ls' := by
  have hmem : ∀ p, p ∈ ps' ↔ p ∈ ps := fun p => (hperm.mem_iff (a := p)).symm
  have hh := holds sortSiblings_perm hr
  have hh' := holds sortSiblings_perm hr'
  obtain ⟨_, bs, c1, c2⟩ := found_layout hl hh (registered_piece hr) hplain a1
  obtain ⟨_, bs', d1, d2⟩ := found_layout hl hh' (registered_piece hr') (fun p hp => hplain p ((hmem p).1 hp)) b1
  rw [hmem] at b2
  have hs := same_kinds (hstars p a2) (hstars p' b2) ⟨bs, c1⟩ ⟨bs', d1⟩ a3 b3
  have hpp : p = p' := by
    by_cases hany : ∃ s ∈ p.segments, s.kind = .constraint
    · obtain ⟨s, hsm, hsk⟩ := hany
      obtain ⟨t, ht, hk, u, hu, f1, f2⟩ := hs.mem_left hsm
      exact hcon p a2 p' b2 s hsm t ht hsk (hk ▸ hsk) u hu f1 f2
    · have hne1 : p.segments ≠ [] := by
        intro h0
        have := c1
        rw [h0] at this
        exact hne (describes_nil.1 ⟨bs, this⟩)
      have hne2 : p'.segments ≠ [] := by
        intro h0
        have := d1
        rw [h0] at this
        exact hne (describes_nil.1 ⟨bs', this⟩)
      obtain ⟨l, e1, _⟩ := hh.added p a2 hne1
      obtain ⟨l', e1', _⟩ := hh.added p' b2 hne2
      refine way_unique (ci := ci) hl e1 (registered_apart hl sortSiblings_perm hr) e1' ?_
      have o1 := (hh.leaf l p e1).2
      have o2 := (hh.leaf l' p' e1').2
      have alike : ∀ {c s : Segment}, s.kind ≠ .constraint → (c = s ∨ shares x ci s c = true) → Alike2 x ci s c := by
        intro c s hk h
        rcases h with rfl | h
        · exact alike2_refl hl hk
        · exact ⟨hk, h⟩
      have hsame : All2 (fun s t => s.kind ≠ .constraint ∧ Alike2 x ci s t) p.segments p'.segments := by
        refine hs.imp ?_
        rintro s t hsm htm ⟨hk, u, hu, f1, f2⟩
        have hnc : s.kind ≠ .constraint := fun h => hany ⟨s, hsm, h⟩
        refine ⟨hnc, alike2_of_same hl hnc (piece_unknown (registered_piece hr p a2 s hsm)) ⟨hk, ?_, fun h => absurd h hnc⟩⟩
        rintro (hlit | hre)
        · have hlit' : t.kind = .literal := by rw [← hk]; exact hlit
          simp only [Fit, hlit] at f1
          simp only [Fit, hlit'] at f2
          rcases f1 with f1 | ⟨hc, f1⟩ <;> rcases f2 with f2 | ⟨hc', f2⟩
          · left; rw [← f1, ← f2]
          · right; exact ⟨hc', by rw [← f1]; exact f2⟩
          · right; exact ⟨hc, by rw [← f2]; exact hl.symm _ _ f1⟩
          · right; exact ⟨hc, hl.trans _ _ _ (hl.symm _ _ f1) f2⟩
        · exact hset p a2 p' b2 s hsm t htm hre (hk ▸ hre) u hu f1 f2
      have comp : ∀ {l l' : List (Segment × UInt8)} {ss ts : List Segment}, OnNode x ci l ss → OnNode x ci l' ts →
          All2 (fun s t => s.kind ≠ .constraint ∧ Alike2 x ci s t) ss ts → All2 (fun c c' => Alike2 x ci c.1 c'.1) l l' := by
        intro l l' ss ts h1 h2 h3
        induction h3 generalizing l l' with
        | nil => cases h1; cases h2; exact .nil
        | cons r _ ih =>
          cases h1 with
          | cons g1 k1 =>
            cases h2 with
            | cons g2 k2 =>
              exact .cons (alike2_trans hl (alike2_symm hl (alike r.1 g1))
                (alike2_trans hl r.2 (alike (by rw [shares_kind r.2.2]; exact r.1) g2))) (ih k1 k2)
      exact comp o1 o2 hsame
  subst hpp
  rw [c2, d2, layout_unique (hstars p a2) c1 d1]

/-- Two orders of registration answer the root alike. -/
theorem roots_agree {x : Ext} {ci : Bool}
    {ps ps' : List Pattern} {m m' : Matcher} (hr : Registered x ci sortSiblings ps m) (hr' : Registered x ci sortSiblings ps' m') (hperm : ps.Perm ps') :
    answer (matchText x ci) m [] = answer (matchText x ci) m' [] := by
  have hmem : ∀ p, p ∈ ps' ↔ p ∈ ps := fun p => (hperm.mem_iff (a := p)).symm
  have hh := holds sortSiblings_perm hr
  have hh' := holds sortSiblings_perm hr'
  have : m.root = m'.root := by
    cases hm : m.root with
    | some p =>
      obtain ⟨g1, g2⟩ := hh.root p hm
      exact (hh'.rootAdded p ((hmem p).2 g1) g2).symm
    | none =>
      cases hm' : m'.root with
      | none => rfl
      | some p =>
        obtain ⟨g1, g2⟩ := hh'.root p hm'
        rw [hh.rootAdded p ((hmem p).1 g1) g2] at hm
        cases hm
  unfold answer
  rw [this]
  cases m'.root with
  | some p => rfl
  | none => simp [tryC_nil]

/-- C20: two registration orders of the same patterns answer a request alike, under the conditions
of C19 and when constraints of different patterns do not compete for a request segment either. -/
theorem c20_order_partial {x : Ext} {ci : Bool} (hl : FoldLaws x.eqFold)
    {ps ps' : List Pattern} {m m' : Matcher} (hr : Registered x ci sortSiblings ps m) (hr' : Registered x ci sortSiblings ps' m') (hperm : ps.Perm ps')
    (hplain : ∀ p ∈ ps, ∀ s ∈ p.segments, Plain ci s)
    (hfew : ps.length < 65536) (hshort : ∀ p ∈ ps, (pieces p.raw).length ≤ 19) (hstars : ∀ p ∈ ps, StarsLast p.segments)
    {path : Str} {buf buf' : List USeg} (hb : buf.length = 19) (hb' : buf'.length = 19) (hlen : path.length ≤ 65535) (hf : Fits path)
    (hfaith : Faithful ci ps (segmentsOf path)) (hset : Settled x ci ps (segmentsOf path))
    (hcon : ∀ p ∈ ps, ∀ q ∈ ps, ∀ s ∈ p.segments, ∀ t ∈ q.segments, s.kind = .constraint → t.kind = .constraint → ∀ u ∈ segmentsOf path,
      Fit x ci s u → Fit x ci t u → p = q)
    (hpre : ∀ p ∈ ps, ∀ k, 0 < k → k < p.segments.length → ¬ Describes x ci (p.segments.take k) (segmentsOf path)) :
    ∃ f, ∀ g, f ≤ g → lookup x ci m path buf g = lookup x ci m' path buf' g ∧ lookup x ci m path buf g ≠ none := by
  obtain ⟨f, h1⟩ := lookup_eq x ci m path buf hb hlen
  obtain ⟨f', h1'⟩ := lookup_eq x ci m' path buf' hb' hlen
  rw [requestOf_fits hf] at h1 h1'
  refine ⟨max f f', fun g hg => ?_⟩
  rw [h1 g (by omega), h1' g (by omega)]
  refine ⟨?_, by simp⟩
  congr 1
  have hmem : ∀ p, p ∈ ps' ↔ p ∈ ps := fun p => (hperm.mem_iff (a := p)).symm
  have hh := holds sortSiblings_perm hr
  have hh' := holds sortSiblings_perm hr'
  have h19 : (segmentsOf path).length ≤ 19 := hf _ (List.prefix_refl _)
  by_cases hne : segmentsOf path = []
  · rw [hne]
    exact roots_agree hr hr' hperm
  · have B := answer_best (A := True) hl sortSiblings_perm hr hplain hfew hstars (fun p hp => by have := hshort p hp; omega) (fun _ => sortSiblings_sorted) (fun _ => hshort)
      (fun _ => hset) h19 hfaith hpre hne
    have B' := answer_best (A := True) hl sortSiblings_perm hr' (fun p hp => hplain p ((hmem p).1 hp)) (by rw [← hperm.length_eq]; exact hfew)
      (fun p hp => hstars p ((hmem p).1 hp)) (fun p hp => by have := hshort p ((hmem p).1 hp); omega) (fun _ => sortSiblings_sorted)
      (fun _ p hp => hshort p ((hmem p).1 hp)) (fun _ p hp q hq => hset p ((hmem p).1 hp) q ((hmem q).1 hq)) h19
      ⟨fun p hp => hfaith.wild p ((hmem p).1 hp), fun hc p hp => hfaith.pats hc p ((hmem p).1 hp), hfaith.request⟩
      (fun p hp => hpre p ((hmem p).1 hp)) hne
    rcases B with ⟨p, ls, a1, a2, a3⟩ | ⟨a1, a2⟩ <;> rcases B' with ⟨p', ls', b1, b2, b3⟩ | ⟨b1, b2⟩
    · rw [a1, b1]
      obtain ⟨_, bs, c1, _⟩ := found_layout hl hh (registered_piece hr) hplain a1
      obtain ⟨_, bs', d1, _⟩ := found_layout hl hh' (registered_piece hr') (fun p hp => hplain p ((hmem p).1 hp)) b1
      exact answers_agree hl hr hr' hperm hplain hstars hset hcon hne a1 b1 a2 b2 (a3 trivial p' ((hmem p').1 b2) ⟨bs', d1⟩)
        (b3 trivial p ((hmem p).2 a2) ⟨bs, c1⟩)
    · obtain ⟨_, bs, c1, _⟩ := found_layout hl hh (registered_piece hr) hplain a1
      exact absurd ⟨bs, c1⟩ (b2 p ((hmem p).2 a2))
    · obtain ⟨_, bs', d1, _⟩ := found_layout hl hh' (registered_piece hr') (fun p hp => hplain p ((hmem p).1 hp)) b1
      exact absurd ⟨bs', d1⟩ (a2 p' ((hmem p').1 b2))
    · rw [a1, b1]

/-! ### C21 -/

/-- C21 fails: `/{x:a}` is accepted a second time. -/
theorem c21_violated : ∃ ps m m' p, Registered plainExt false sortSiblings ps m ∧ parsePattern plainExt false b!"/{x:a}" = .ok p ∧
    (∃ q ∈ ps, SameShape plainExt false p.segments q.segments) ∧ addPattern plainExt false sortSiblings m p = (m', false) := by
  have hb : ∃ ps m, build plainExt false sortSiblings [(b!"/{x:a}", 1)] = some (ps, m) ∧
      patOf plainExt false b!"/{x:a}" 1 ∈ ps ∧ (addPattern plainExt false sortSiblings m (patOf plainExt false b!"/{x:a}" 0)).2 = false := by
    have : (match build plainExt false sortSiblings [(b!"/{x:a}", 1)] with
      | none => false
      | some (ps, m) => ps.contains (patOf plainExt false b!"/{x:a}" 1) && !(addPattern plainExt false sortSiblings m (patOf plainExt false b!"/{x:a}" 0)).2)
        = true := by decide +kernel
    split at this
    · cases this
    · rename_i ps m h
      simp only [Bool.and_eq_true, List.contains_iff_mem, Bool.not_eq_true'] at this
      exact ⟨ps, m, h, this.1, this.2⟩
  obtain ⟨ps, m, h1, h2, h3⟩ := hb
  refine ⟨ps, m, (addPattern plainExt false sortSiblings m (patOf plainExt false b!"/{x:a}" 0)).1, patOf plainExt false b!"/{x:a}" 0,
    build_registered h1, by decide +kernel, ⟨_, h2, ?_⟩, Prod.ext rfl h3⟩
  have e : ∀ h, (patOf plainExt false b!"/{x:a}" h).segments = [{ val := b!"{x:a}", kind := .constraint, varName := b!"x", re := some b!"a" }] := by
    intro h
    have : (patOf plainExt false b!"/{x:a}" h).segments = (patOf plainExt false b!"/{x:a}" 0).segments := rfl
    rw [this]
    decide +kernel
  rw [e, e]
  exact .cons ⟨rfl, fun _ => .inl rfl, fun _ => rfl⟩ .nil

theorem onto_way {x : Ext} {ci : Bool} (hl : FoldLaws x.eqFold) {l : List (Segment × UInt8)} {ts ss : List Segment} (h : OnNode x ci l ts)
    (hs : All2 (Alike2 x ci) ss ts) : All2 (fun c s => Alike2 x ci s c.1) l ss := by
  induction hs generalizing l with
  | nil => cases h; exact .nil
  | cons r _ ih =>
    cases h with
    | cons g k =>
      refine .cons (alike2_trans hl r ?_) (ih k)
      rcases g with rfl | g
      · exact alike2_refl hl (by rw [shares_kind r.2]; exact r.1)
      · exact ⟨by rw [shares_kind r.2]; exact r.1, g⟩

/-- C21: a pattern without constraints that is the same as a registered one, up to the names of
variables and the case of letters when that is ignored, is refused. -/
theorem c21_refused_partial {x : Ext} {ci : Bool} (hl : FoldLaws x.eqFold)
    {ps : List Pattern} {m : Matcher} (hr : Registered x ci sortSiblings ps m) {raw : Str} {p : Pattern} (hp : parsePattern x ci raw = .ok p) (a : Nat)
    {q : Pattern} (hq : q ∈ ps) (hs : SameShape x ci p.segments q.segments) (hnc : ∀ s ∈ p.segments, s.kind ≠ .constraint) :
    (addPattern x ci sortSiblings m { p with attachment := a }).2 = true := by
  have hh := holds sortSiblings_perm hr
  unfold SameShape at hs
  unfold addPattern
  simp only
  cases hseg : p.segments with
  | nil =>
    rw [hseg] at hs
    generalize hq0 : q.segments = ts at hs
    cases hs
    have := hh.rootAdded q hq hq0
    rw [this]
  | cons s ss =>
    have hne : q.segments ≠ [] := by
      intro h0
      rw [hseg, h0] at hs
      cases hs
    obtain ⟨l, h1, _⟩ := hh.added q hq hne
    simp only
    refine insert_refuses hl ss 0 s m.kids l q (registered_apart hl sortSiblings_perm hr) h1 (onto_way hl (hh.leaf l q h1).2 ?_)
    rw [← hseg]
    refine hs.imp ?_
    intro t t' ht _ h
    exact alike2_of_same hl (hnc t ht) (piece_unknown (c06_classified x ci raw p hp t ht).2.1) h

/-- `/A/{y}/x*` after `/a/{x}/X*` in case-insensitive mode. -/
example : ∃ ps m p q, Registered plainExt true sortSiblings ps m ∧ parsePattern plainExt true b!"/A/{y}/x*" = .ok p ∧ q ∈ ps ∧
    SameShape plainExt true p.segments q.segments ∧ ∀ s ∈ p.segments, s.kind ≠ .constraint := by
  obtain ⟨ps, m, h1, h2, _⟩ := checked_spec (x := plainExt) (ci := true) (l := [(b!"/a/{x}/X*", 1), (b!"/a/{x}", 1)])
    (f := fun ps => ps.contains (patOf plainExt true b!"/a/{x}/X*" 1)) (by decide +kernel)
  refine ⟨ps, m, patOf plainExt true b!"/A/{y}/x*" 0, patOf plainExt true b!"/a/{x}/X*" 1, h1, by decide +kernel, by simpa using h2, ?_, by decide +kernel⟩
  have e1 : (patOf plainExt true b!"/A/{y}/x*" 0).segments =
    [{ val := b!"A", kind := .literal }, { val := b!"{y}", kind := .capture, varName := b!"y" }, { val := b!"x*", kind := .regex }] := by decide +kernel
  have e2 : (patOf plainExt true b!"/a/{x}/X*" 1).segments =
    [{ val := b!"a", kind := .literal }, { val := b!"{x}", kind := .capture, varName := b!"x" }, { val := b!"X*", kind := .regex }] := by decide +kernel
  rw [e1, e2]
  exact .cons ⟨rfl, fun _ => .inr ⟨rfl, by decide⟩, fun h => by cases h⟩
    (.cons ⟨rfl, fun h => by simp at h, fun h => by cases h⟩ (.cons ⟨rfl, fun _ => .inr ⟨rfl, by decide⟩, fun h => by cases h⟩ .nil))

/-! ### C22 -/

/-- C22 fails: `/{x:{a:b}}` is refused after `/{a:b}`. -/
theorem c22_violated : ∃ ps m m' p, Registered plainExt false sortSiblings ps m ∧ parsePattern plainExt false b!"/{x:{a:b}}" = .ok p ∧
    (∀ q ∈ ps, ¬ SameShape plainExt false p.segments q.segments) ∧ addPattern plainExt false sortSiblings m p = (m', true) := by
  have hb : ∃ ps m, build plainExt false sortSiblings [(b!"/{a:b}", 1)] = some (ps, m) ∧
      ps = [patOf plainExt false b!"/{a:b}" 1] ∧ (addPattern plainExt false sortSiblings m (patOf plainExt false b!"/{x:{a:b}}" 0)).2 = true := by
    have : (match build plainExt false sortSiblings [(b!"/{a:b}", 1)] with
      | none => false
      | some (ps, m) => ps == [patOf plainExt false b!"/{a:b}" 1] && (addPattern plainExt false sortSiblings m (patOf plainExt false b!"/{x:{a:b}}" 0)).2)
        = true := by decide +kernel
    split at this
    · cases this
    · rename_i ps m h
      simp only [Bool.and_eq_true, beq_iff_eq] at this
      exact ⟨ps, m, h, this.1, this.2⟩
  obtain ⟨ps, m, h1, h2, h3⟩ := hb
  refine ⟨ps, m, (addPattern plainExt false sortSiblings m (patOf plainExt false b!"/{x:{a:b}}" 0)).1, patOf plainExt false b!"/{x:{a:b}}" 0,
    build_registered h1, by decide +kernel, ?_, Prod.ext rfl h3⟩
  intro q hq
  rw [h2, List.mem_singleton] at hq
  subst hq
  have e1 : (patOf plainExt false b!"/{x:{a:b}}" 0).segments = [{ val := b!"{x:{a:b}}", kind := .constraint, varName := b!"x", re := some b!"{a:b}" }] := by decide +kernel
  have e2 : (patOf plainExt false b!"/{a:b}" 1).segments = [{ val := b!"{a:b}", kind := .constraint, varName := b!"a", re := some b!"b" }] := by decide +kernel
  rw [e1, e2]
  intro h
  cases h with
  | cons h _ => exact absurd (h.2.2 rfl) (by decide)

theorem refused_same {x : Ext} {ci : Bool} (hl : FoldLaws x.eqFold)
    {ps : List Pattern} {m : Matcher} (hr : Registered x ci sortSiblings ps m) {raw : Str} {p : Pattern} (hp : parsePattern x ci raw = .ok p)
    (hplain : ∀ s ∈ p.segments, Unbraced ci s) (a : Nat) (h2 : (addPattern x ci sortSiblings m { p with attachment := a }).2 = true) :
    (∀ s ∈ p.segments, s.kind ≠ .constraint) ∧ ∃ q ∈ ps, SameShape x ci p.segments q.segments := by
  have hh := holds sortSiblings_perm hr
  unfold addPattern at h2
  simp only at h2
  cases hseg : p.segments with
  | nil =>
    rw [hseg] at h2
    refine ⟨nofun, ?_⟩
    cases hroot : m.root with
    | none => rw [hroot] at h2; cases h2
    | some q =>
      obtain ⟨g1, g2⟩ := hh.root q hroot
      exact ⟨q, g1, by rw [g2]; exact .nil⟩
  | cons s ss =>
    rw [hseg] at h2
    simp only at h2
    obtain ⟨l, q, h3, h4⟩ := insert_err _ _ _ _ h2
    obtain ⟨h5, h6⟩ := hh.leaf l q h3
    rw [← hseg] at h4 ⊢
    have hncs : ∀ c t, c ∈ l → t ∈ p.segments → shares x ci t c.1 = true → t.kind ≠ .constraint := by
      intro c t hc ht h7 hk
      obtain ⟨p', hp', hcp⟩ := hh.nodes _ (has_of_leaf h3 c hc)
      rw [not_shares_constraint (registered_piece hr p' hp' _ hcp) (c06_classified x ci raw p hp t ht).2.1 (hplain t ht) hk] at h7
      cases h7
    refine ⟨fun t ht => ?_, q, h5, ?_⟩
    · obtain ⟨c, hc, hs⟩ := h4.mem_right ht
      exact hncs c t hc ht hs
    · refine all2_trans h4 h6 ?_
      intro c t t' hc ht ht' h7 h8
      have hnc := hncs c t hc ht h7
      have hkc := shares_kind h7
      refine same_of_alike2 (alike2_trans hl ⟨hnc, h7⟩ ?_)
      rcases h8 with h8 | h8
      · rw [← h8]; exact alike2_refl hl (by rw [hkc]; exact hnc)
      · exact alike2_symm hl ⟨by rw [← shares_kind h8, hkc]; exact hnc, h8⟩

/-- C22: a refused pattern is the same as a registered one, constraints whose expression starts
with a brace excluded (in case-insensitive mode there is no exception). -/
theorem c22_duplicate_partial {x : Ext} {ci : Bool} (hl : FoldLaws x.eqFold)
    {ps : List Pattern} {m : Matcher} (hr : Registered x ci sortSiblings ps m) {raw : Str} {p : Pattern} (hp : parsePattern x ci raw = .ok p)
    (hplain : ∀ s ∈ p.segments, Unbraced ci s) (a : Nat) {m' : Matcher}
    (h : addPattern x ci sortSiblings m { p with attachment := a } = (m', true)) :
    ∃ q ∈ ps, SameShape x ci p.segments q.segments :=
  (refused_same hl hr hp hplain a (by rw [h])).2

/-- C21, exactly: a pattern (without constraints whose expression starts with a brace) is refused if and only if it is the same as a
registered one and has no constraint: a pattern with a constraint is accepted as often as it is registered. -/
theorem c21_exact {x : Ext} {ci : Bool} (hl : FoldLaws x.eqFold)
    {ps : List Pattern} {m : Matcher} (hr : Registered x ci sortSiblings ps m) {raw : Str} {p : Pattern} (hp : parsePattern x ci raw = .ok p)
    (hplain : ∀ s ∈ p.segments, Unbraced ci s) (a : Nat) :
    (addPattern x ci sortSiblings m { p with attachment := a }).2 = true ↔
      (∀ s ∈ p.segments, s.kind ≠ .constraint) ∧ ∃ q ∈ ps, SameShape x ci p.segments q.segments :=
  ⟨refused_same hl hr hp hplain a, fun ⟨hnc, q, hq, hs⟩ => c21_refused_partial hl hr hp a hq hs hnc⟩

/-- A refusal that meets the hypotheses. -/
example : ∃ ps m m' p, Registered plainExt false sortSiblings ps m ∧ parsePattern plainExt false b!"/a/{y}" = .ok p ∧
    (∀ s ∈ p.segments, Unbraced false s) ∧ addPattern plainExt false sortSiblings m { p with attachment := 3 } = (m', true) := by
  have : (match build plainExt false sortSiblings [(b!"/a/{v:x}", 3), (b!"/a/b/*", 2), (b!"/a/{x}", 1)] with
      | none => false
      | some (_, m) => (addPattern plainExt false sortSiblings m (patOf plainExt false b!"/a/{y}" 3)).2)
        = true := by decide +kernel
  split at this
  · cases this
  · rename_i ps m h
    refine ⟨ps, m, (addPattern plainExt false sortSiblings m (patOf plainExt false b!"/a/{y}" 3)).1, patOf plainExt false b!"/a/{y}" 0,
      build_registered h, by decide +kernel, ?_, ?_⟩
    · intro s hs
      have : (patOf plainExt false b!"/a/{y}" 0).segments.all (plainB false) = true := by decide +kernel
      rw [List.all_eq_true] at this
      exact (plain_of_B (this s hs)).1
    · have e : ({ patOf plainExt false b!"/a/{y}" 0 with attachment := 3 } : Pattern) = patOf plainExt false b!"/a/{y}" 3 := by decide +kernel
      exact e ▸ Prod.ext rfl this

/-! ### C23 -/

/-- C23 fails: with `/{x}` registered the request `/a` is served, after registering `/a/b` as well it is not. -/
theorem c23_violated : ∃ ps m m' p q labels fuel, Registered plainExt false sortSiblings ps m ∧ Registered plainExt false sortSiblings (p :: ps) m' ∧
    lookup plainExt false m b!"/a" freshBuf fuel = some (.found q labels) ∧ lookup plainExt false m' b!"/a" freshBuf fuel = some .none := by
  obtain ⟨ps, m, h1, h2, h3⟩ := checked_spec (x := plainExt) (ci := false) (l := [(b!"/{x}", 1)])
    (f := fun ps => ps == [patOf plainExt false b!"/{x}" 1]) (by decide +kernel)
  obtain ⟨ps', m', h1', h2', h3'⟩ := checked_spec (x := plainExt) (ci := false) (l := [(b!"/a/b", 2), (b!"/{x}", 1)])
    (f := fun ps => ps == [patOf plainExt false b!"/a/b" 2, patOf plainExt false b!"/{x}" 1]) (by decide +kernel)
  rw [beq_iff_eq] at h2 h2'
  rw [h2', ← h2] at h1'
  exact ⟨ps, m, m', _, patOf plainExt false b!"/{x}" 1, [.capture], 10, h1, h1', (h3 _ _ _).symm.trans (by decide +kernel),
    (h3' _ _ _).symm.trans (by decide +kernel)⟩

/-- C23: a request that was served is still served after a further registration, when the larger
set of patterns meets the conditions of C18. -/
theorem c23_still_served_partial {x : Ext} {ci : Bool} (hl : FoldLaws x.eqFold)
    {ps : List Pattern} {m m' : Matcher} {new : Pattern} (hr : Registered x ci sortSiblings ps m) (hr' : Registered x ci sortSiblings (new :: ps) m')
    (hplain : ∀ p ∈ new :: ps, ∀ s ∈ p.segments, Plain ci s)
    (hfew : (new :: ps).length < 65536) (hlong : ∀ p ∈ new :: ps, (pieces p.raw).length < 256) (hstars : ∀ p ∈ new :: ps, StarsLast p.segments)
    {path : Str} {buf buf' : List USeg} (hb : buf.length = 19) (hb' : buf'.length = 19) (hlen : path.length ≤ 65535) (hf : Fits path)
    (hfaith : Faithful ci (new :: ps) (segmentsOf path))
    (hpre : ∀ p ∈ new :: ps, ∀ k, 0 < k → k < p.segments.length → ¬ Describes x ci (p.segments.take k) (segmentsOf path))
    {fuel : Nat} {p : Pattern} {labels : List MT} (h : lookup x ci m path buf fuel = some (.found p labels)) :
    ∃ f q labels, q ∈ new :: ps ∧ ∀ g, f ≤ g → lookup x ci m' path buf' g = some (.found q labels) := by
  obtain ⟨h1, h2⟩ := c14_described_partial hl hr (fun p hp => hplain p (by simp [hp])) hb hlen hf h
  exact c18_served_partial hl hr' hplain hfew hlong hstars hb' hlen hf hfaith hpre (p := p) (by simp [h1]) h2

/-! ### The hypotheses on a set of overlapping patterns -/

/-- A check for `StarsLast`. -/
def starsLastB (ss : List Segment) : Bool := ss.dropLast.all (·.kind ≠ .multiple)

theorem starsLast_of_B {ss : List Segment} (h : starsLastB ss = true) : StarsLast ss := by
  intro a s b e hk
  cases b with
  | nil => rfl
  | cons c b =>
    subst e
    simp only [starsLastB, List.all_eq_true] at h
    have := h s (by
      rw [List.dropLast_append_cons, List.mem_append]
      right
      simp)
    simp [hk] at this

/-- A check that no beginning of the pattern describes the request, looking at lengths and literals only. -/
def noPrefixB (ss : List Segment) (us : List Str) : Bool :=
  ss.length ≤ us.length || ((ss.take us.length).zip us).any fun (s, u) => s.kind = .literal && s.val != u

theorem noPrefix_of_B {x : Ext} {ss : List Segment} {us : List Str} (hst : StarsLast ss) (h : noPrefixB ss us = true) :
    ∀ k, 0 < k → k < ss.length → ¬ Describes x false (ss.take k) us := by
  intro k _ hk hd
  have hns : ∀ s ∈ ss.take k, s.kind ≠ .multiple := by
    intro s hs hm
    obtain ⟨a, b, e⟩ := List.append_of_mem hs
    have := hst a s (b ++ ss.drop k) (by rw [← List.cons_append, ← List.append_assoc, ← e, List.take_append_drop]) hm
    have := congrArg List.length this
    simp at this
    omega
  have hall : All2 (Fit x false) (ss.take k) us := by
    have gen : ∀ (ts : List Segment) (us : List Str), (∀ s ∈ ts, s.kind ≠ .multiple) → Describes x false ts us → All2 (Fit x false) ts us := by
      intro ts
      induction ts with
      | nil => intro us _ h; rw [describes_nil] at h; subst h; exact .nil
      | cons t ts ih =>
        intro us hn h
        obtain ⟨u, vs, rfl, h1, h2⟩ := (describes_one (hn t (by simp))).1 h
        exact .cons h1 (ih vs (fun s hs => hn s (by simp [hs])) h2)
    exact gen _ _ hns hd
  have hl := hall.length
  simp only [List.length_take] at hl
  simp only [noPrefixB, Bool.or_eq_true, decide_eq_true_eq] at h
  rcases h with h | h
  · omega
  · have hkl : us.length = k := by omega
    rw [hkl] at h
    simp only [List.any_eq_true] at h
    obtain ⟨⟨s, u⟩, hm, hlit⟩ := h
    have : ∀ {ts : List Segment} {us : List Str}, All2 (Fit x false) ts us → ∀ a ∈ ts.zip us, Fit x false a.1 a.2 := by
      intro ts us h
      induction h with
      | nil => intro a ha; simp at ha
      | cons r _ ih =>
        intro a ha
        rcases List.mem_cons.1 (by simpa using ha) with rfl | ha
        · exact r
        · exact ih a ha
    have hf := this hall _ hm
    simp only [Bool.and_eq_true, decide_eq_true_eq] at hlit
    simp only [Fit, hlit.1] at hf
    simp at hf
    rw [hf] at hlit
    simp at hlit

/-- A check for the hypotheses of C18, C19 and C20, for case-sensitive patterns whose wildcards
are all `x*`. -/
def tidyB (us : List Str) (ps : List Pattern) : Bool :=
  ps.all fun p => p.segments.all (fun s => plainB false s && (s.kind ≠ .regex || s.val = b!"x*")) && starsLastB p.segments && noPrefixB p.segments us &&
    decide ((pieces p.raw).length ≤ 19)

theorem tidy_spec {ps : List Pattern} (h : tidyB (segmentsOf b!"/a/xy") ps = true) :
    (∀ p ∈ ps, ∀ s ∈ p.segments, Plain false s) ∧ (∀ p ∈ ps, (pieces p.raw).length ≤ 19) ∧ (∀ p ∈ ps, StarsLast p.segments) ∧
    Faithful false ps (segmentsOf b!"/a/xy") ∧ Settled plainExt false ps (segmentsOf b!"/a/xy") ∧
    (∀ p ∈ ps, ∀ k, 0 < k → k < p.segments.length → ¬ Describes plainExt false (p.segments.take k) (segmentsOf b!"/a/xy")) := by
  simp only [Bool.and_eq_true, decide_eq_true_eq, tidyB, List.all_eq_true, Bool.or_eq_true] at h
  have hst : ∀ p ∈ ps, StarsLast p.segments := fun p hp => starsLast_of_B (h p hp).1.1.2
  have hre : ∀ p ∈ ps, ∀ s ∈ p.segments, s.kind = .regex → s.val = b!"x*" := by
    intro p hp s hs hk
    rcases ((h p hp).1.1.1 s hs).2 with h | h
    · exact absurd hk h
    · exact h
  refine ⟨fun p hp s hs => plain_of_B ((h p hp).1.1.1 s hs).1, fun p hp => (h p hp).2, hst, ⟨?_, by simp, by simp⟩, ?_,
    fun p hp => noPrefix_of_B (hst p hp) (h p hp).1.2⟩
  · intro p hp s hs hk u hu
    rw [hre p hp s hs hk]
    refine ⟨?_, ?_⟩
    · rintro ⟨a, d, e, b, c, h, _⟩
      have := congrArg List.length h
      simp at this
      omega
    · intro q hq hg
      have : q = b!"x" := by
        have := congrArg List.dropLast hq
        simpa using this.symm
      subst this
      have hu' : u = b!"a" ∨ u = b!"xy" := by
        have : segmentsOf b!"/a/xy" = [b!"a", b!"xy"] := by decide
        rw [this] at hu
        simpa using hu
      have := (c02_accepts_all_described_partial false b!"x" u (by
        rintro ⟨a, b, h⟩
        have := congrArg List.length h
        simp at this
        omega) (by
        intro q h
        have := congrArg List.getLast? h
        simp at this)).2 hg
      rcases hu' with rfl | rfl <;> revert this <;> decide
  · intro p hp q hq s hs t ht' hk hk' u _ _ _
    left
    rw [hre p hp s hs hk, hre q hq t ht' hk']

/-- Overlapping patterns with variables, a constraint, a wildcard and a final `**` meet the
hypotheses of C18 and C19 for the request `/a/xy`, several of them describing it. -/
example : ∃ ps m p q, Registered plainExt false sortSiblings ps m ∧ ps.length = 7 ∧ p ∈ ps ∧ q ∈ ps ∧ p ≠ q ∧
    Describes plainExt false p.segments (segmentsOf b!"/a/xy") ∧ Describes plainExt false q.segments (segmentsOf b!"/a/xy") ∧
    ((∀ p ∈ ps, ∀ s ∈ p.segments, Plain false s) ∧ (∀ p ∈ ps, (pieces p.raw).length ≤ 19) ∧ (∀ p ∈ ps, StarsLast p.segments) ∧
      Faithful false ps (segmentsOf b!"/a/xy") ∧ Settled plainExt false ps (segmentsOf b!"/a/xy") ∧
      (∀ p ∈ ps, ∀ k, 0 < k → k < p.segments.length → ¬ Describes plainExt false (p.segments.take k) (segmentsOf b!"/a/xy"))) ∧
    Fits b!"/a/xy" ∧
    lookup plainExt false m b!"/a/xy" freshBuf 20 = some (.found (patOf plainExt false b!"/a/{v:y}" 6) [.literal, .constraint]) := by
  obtain ⟨ps, m, h1, h2, h3⟩ := checked_spec (x := plainExt) (ci := false)
    (l := [(b!"/b/a/c", 7), (b!"/a/{v:y}", 6), (b!"/{x}/x*", 5), (b!"/a/x*", 4), (b!"/a/**", 3), (b!"/a/{w}", 2), (b!"/a/b/c", 1)])
    (f := fun ps => tidyB (segmentsOf b!"/a/xy") ps && decide (ps.length = 7) && ps.contains (patOf plainExt false b!"/a/{w}" 2) &&
      ps.contains (patOf plainExt false b!"/a/**" 3)) (by decide +kernel)
  simp only [Bool.and_eq_true, decide_eq_true_eq, List.contains_iff_mem] at h2
  obtain ⟨⟨⟨ht, hn⟩, hp⟩, hq⟩ := h2
  refine ⟨ps, m, _, _, h1, hn, hp, hq, by decide +kernel, ?_, ?_, tidy_spec ht, fits_of_peak _ (by decide), (h3 _ _ _).symm.trans (by decide +kernel)⟩
  · have hseg : (patOf plainExt false b!"/a/{w}" 2).segments =
        [{ val := b!"a", kind := .literal }, { val := b!"{w}", kind := .capture, varName := b!"w" }] := by decide +kernel
    rw [hseg]
    exact (describes_one (by decide)).2 ⟨b!"a", [b!"xy"], by decide, .inl rfl, (describes_one (by decide)).2 ⟨b!"xy", [], rfl, trivial, describes_nil.2 rfl⟩⟩
  · have hseg : (patOf plainExt false b!"/a/**" 3).segments =
        [{ val := b!"a", kind := .literal }, { val := b!"**", kind := .multiple }] := by decide +kernel
    rw [hseg]
    exact (describes_one (by decide)).2 ⟨b!"a", [b!"xy"], by decide, .inl rfl, (describes_star rfl).2 ⟨[b!"xy"], [], rfl, by simp, describes_nil.2 rfl⟩⟩

/-- The same for C20, with two orders of registration. -/
example : ∃ ps ps' m m', Registered plainExt false sortSiblings ps m ∧ Registered plainExt false sortSiblings ps' m' ∧ ps.Perm ps' ∧ ps ≠ ps' ∧
    ((∀ p ∈ ps, ∀ s ∈ p.segments, Plain false s) ∧ (∀ p ∈ ps, (pieces p.raw).length ≤ 19) ∧ (∀ p ∈ ps, StarsLast p.segments) ∧
      Faithful false ps (segmentsOf b!"/a/xy") ∧ Settled plainExt false ps (segmentsOf b!"/a/xy") ∧
      (∀ p ∈ ps, ∀ k, 0 < k → k < p.segments.length → ¬ Describes plainExt false (p.segments.take k) (segmentsOf b!"/a/xy"))) ∧
    (∀ p ∈ ps, ∀ q ∈ ps, ∀ s ∈ p.segments, ∀ t ∈ q.segments, s.kind = .constraint → t.kind = .constraint → ∀ u ∈ segmentsOf b!"/a/xy",
      Fit plainExt false s u → Fit plainExt false t u → p = q) := by
  obtain ⟨ps, m, h1, h2, _⟩ := checked_spec (x := plainExt) (ci := false) (l := [(b!"/{x}/x*", 3), (b!"/a/{v:y}", 2), (b!"/a/{w}", 1)])
    (f := fun ps => tidyB (segmentsOf b!"/a/xy") ps && (ps == [patOf plainExt false b!"/{x}/x*" 3, patOf plainExt false b!"/a/{v:y}" 2,
      patOf plainExt false b!"/a/{w}" 1]) && ps.all fun p => (p.segments.all fun s => s.kind ≠ .constraint) || p == patOf plainExt false b!"/a/{v:y}" 2)
    (by decide +kernel)
  obtain ⟨ps', m', h1', h2', _⟩ := checked_spec (x := plainExt) (ci := false) (l := [(b!"/a/{v:y}", 2), (b!"/{x}/x*", 3), (b!"/a/{w}", 1)])
    (f := fun ps => ps == [patOf plainExt false b!"/a/{v:y}" 2, patOf plainExt false b!"/{x}/x*" 3, patOf plainExt false b!"/a/{w}" 1])
    (by decide +kernel)
  simp only [Bool.and_eq_true, beq_iff_eq] at h2 h2'
  obtain ⟨⟨ht, he⟩, hc⟩ := h2
  refine ⟨ps, ps', m, m', h1, h1', ?_, ?_, tidy_spec ht, ?_⟩
  · rw [he, h2']
    exact List.Perm.swap _ _ _
  · rw [he, h2']
    decide +kernel
  · simp only [List.all_eq_true, Bool.or_eq_true, beq_iff_eq, decide_eq_true_eq] at hc
    intro p hp q hq s hs t ht' hk hk' _ _ _ _
    rcases hc p hp with h | h
    · exact absurd hk (h s hs)
    · rcases hc q hq with h' | h'
      · exact absurd hk' (h' t ht')
      · rw [h, h']

/-- The same for C23: `/{x}/x*` is registered after `/a/{w}`. -/
example : ∃ ps m m' new p labels fuel, Registered plainExt false sortSiblings ps m ∧ Registered plainExt false sortSiblings (new :: ps) m' ∧
    ((∀ p ∈ new :: ps, ∀ s ∈ p.segments, Plain false s) ∧ (∀ p ∈ new :: ps, (pieces p.raw).length ≤ 19) ∧ (∀ p ∈ new :: ps, StarsLast p.segments) ∧
      Faithful false (new :: ps) (segmentsOf b!"/a/xy") ∧ Settled plainExt false (new :: ps) (segmentsOf b!"/a/xy") ∧
      (∀ p ∈ new :: ps, ∀ k, 0 < k → k < p.segments.length → ¬ Describes plainExt false (p.segments.take k) (segmentsOf b!"/a/xy"))) ∧
    lookup plainExt false m b!"/a/xy" freshBuf fuel = some (.found p labels) := by
  obtain ⟨ps, m, h1, h2, h3⟩ := checked_spec (x := plainExt) (ci := false) (l := [(b!"/a/{w}", 1)])
    (f := fun ps => ps == [patOf plainExt false b!"/a/{w}" 1]) (by decide +kernel)
  obtain ⟨ps', m', h1', h2', _⟩ := checked_spec (x := plainExt) (ci := false) (l := [(b!"/{x}/x*", 2), (b!"/a/{w}", 1)])
    (f := fun ps => (ps == [patOf plainExt false b!"/{x}/x*" 2, patOf plainExt false b!"/a/{w}" 1]) && tidyB (segmentsOf b!"/a/xy") ps) (by decide +kernel)
  simp only [Bool.and_eq_true, beq_iff_eq] at h2 h2'
  have e := h2'.1
  rw [← h2] at e
  rw [e] at h1'
  exact ⟨ps, m, m', _, patOf plainExt false b!"/a/{w}" 1, [.literal, .capture], 10, h1, h1', e ▸ tidy_spec h2'.2, (h3 _ _ _).symm.trans (by decide +kernel)⟩

end Gofre.Props
