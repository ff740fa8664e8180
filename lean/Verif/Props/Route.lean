import Verif.Proofs.NoPanic

/-!
# Theorems about matching requests: soundness, path variables, termination, crashes

Properties C14, C15, C16, C17, C24.
-/

namespace Gofre.Props
open Gofre.Path Gofre.Spec

/-- A segment buffer as handed out by the pool. -/
def freshBuf : List USeg := List.replicate 19 ⟨0, 0⟩

theorem requestOf_fits {path : Str} (h : Fits path) : requestOf path = segmentsOf path := by simp [requestOf, h]

theorem requestOf_over {path : Str} (h : ¬ Fits path) : requestOf path = [] := by simp [requestOf, h]

theorem registered_piece {x : Ext} {ci : Bool} {srt : List Node → List Node} {ps : List Pattern} {m : Matcher} (hr : Registered x ci srt ps m) :
    ∀ p ∈ ps, ∀ s ∈ p.segments, Piece ci s.val s := by
  intro p hp s hs
  obtain ⟨raw, p0, a, h1, rfl⟩ := registered_parsed hr p hp
  exact (c06_classified x ci raw p0 h1 s hs).2.1

/-- A check for `Plain`. -/
def plainB (ci : Bool) (s : Segment) : Bool :=
  (s.kind ≠ .constraint || ci || s.re.all (·.head? != some 123)) && (s.kind ≠ .regex || !ci || s.val.all (· < 128))

theorem plain_of_B {ci : Bool} {s : Segment} (h : plainB ci s = true) : Plain ci s := by
  simp only [plainB, Bool.and_eq_true, Bool.or_eq_true] at h
  constructor
  · intro hk hc src hs
    have := h.1
    simp [hk, hc, hs] at this
    exact this
  · intro hk hc c hcm
    have := h.2
    simp [hk, hc] at this
    exact this c hcm

/-! ### C14 -/

/-- C14 fails: with `/{a:b}/p` and then `/{x:{a:b}}/q` registered, the request `/b/q` is answered by
the second one, although its constraint does not accept `b`. -/
theorem c14_violated : ∃ ps m p labels fuel, Registered plainExt false sortSiblings ps m ∧ p ∈ ps ∧ p.raw = b!"/{x:{a:b}}/q" ∧
    lookup plainExt false m b!"/b/q" freshBuf fuel = some (.found p labels) ∧
    ¬ Describes plainExt false p.segments (segmentsOf b!"/b/q") := by
  obtain ⟨ps, m, h1, h2, h3⟩ := checked_spec (x := plainExt) (ci := false) (l := [(b!"/{x:{a:b}}/q", 2), (b!"/{a:b}/p", 1)])
    (f := fun ps => ps.contains (patOf plainExt false b!"/{x:{a:b}}/q" 2)) (by decide +kernel)
  refine ⟨ps, m, patOf plainExt false b!"/{x:{a:b}}/q" 2, [.constraint, .literal], 10, h1, by simpa using h2, by decide +kernel,
    (h3 _ _ _).symm.trans (by decide +kernel), ?_⟩
  have hseg : (patOf plainExt false b!"/{x:{a:b}}/q" 2).segments =
      [{ val := b!"{x:{a:b}}", kind := .constraint, varName := b!"x", re := some b!"{a:b}" }, { val := b!"q", kind := .literal }] := by decide +kernel
  rw [hseg]
  intro h
  obtain ⟨u, vs, h1, h2, _⟩ := (describes_one (by decide)).1 h
  obtain ⟨rfl, rfl⟩ : b!"b" = u ∧ [b!"q"] = vs := by
    have : segmentsOf b!"/b/q" = [b!"b", b!"q"] := by decide
    rw [this] at h1
    simpa using h1
  obtain ⟨src, h3, h4⟩ := h2
  cases h3
  revert h4
  decide

/-- C14: a pattern returned was registered and describes the request. -/
theorem c14_described_partial {x : Ext} {ci : Bool} (hl : FoldLaws x.eqFold)
    {ps : List Pattern} {m : Matcher} (hr : Registered x ci sortSiblings ps m) (hplain : ∀ p ∈ ps, ∀ s ∈ p.segments, Plain ci s)
    {path : Str} {buf : List USeg} (hb : buf.length = 19) (hlen : path.length ≤ 65535) (hf : Fits path)
    {fuel : Nat} {p : Pattern} {labels : List MT} (h : lookup x ci m path buf fuel = some (.found p labels)) :
    p ∈ ps ∧ Describes x ci p.segments (segmentsOf path) := by
  have h := lookup_result hb hlen h
  obtain ⟨h1, bs, h2, _⟩ := found_layout hl (holds sortSiblings_perm hr) (registered_piece hr) hplain h.symm
  rw [requestOf_fits hf] at h2
  exact ⟨h1, bs, h2⟩

/-- C14 when the path overflows: nothing but the pattern `/` is returned. -/
theorem c14_overflow {x : Ext} {ci : Bool}
    {ps : List Pattern} {m : Matcher} (hr : Registered x ci sortSiblings ps m)
    {path : Str} {buf : List USeg} (hb : buf.length = 19) (hf : ¬ Fits path)
    {fuel : Nat} {p : Pattern} {labels : List MT} (h : lookup x ci m path buf fuel = some (.found p labels)) :
    p ∈ ps ∧ p.segments = [] := by
  obtain ⟨f, hfu⟩ := lookup_over x ci m hb hf
  have h := (lookup_fuel h (Nat.le_max_right f fuel)).symm.trans (hfu _ (Nat.le_max_left f fuel))
  rw [Option.some.injEq] at h
  replace h := h.symm
  cases hroot : m.root with
  | some q =>
    simp only [answer, hroot, MRes.found.injEq] at h
    obtain ⟨rfl, _⟩ := h
    exact (holds sortSiblings_perm hr).root _ hroot
  | none => simp [answer, hroot, tryC_nil, Res.toM] at h

/-- Several patterns with a shared prefix, a constraint, a wildcard and `**` in the middle. -/
example : ∃ ps m p labels, Registered plainExt false sortSiblings ps m ∧ (∀ p ∈ ps, ∀ s ∈ p.segments, Plain false s) ∧
    Fits b!"/a/x1/y//z/b.c" ∧ lookup plainExt false m b!"/a/x1/y//z/b.c" freshBuf 20 = some (.found p labels) ∧ p.raw = b!"/a/{v:x}/**/?.c" := by
  obtain ⟨ps, m, h1, h2, h3⟩ := checked_spec (x := plainExt) (ci := false) (l := [(b!"/a/{v:x}/**/?.c", 3), (b!"/a/b/c", 2), (b!"/a/*", 1)])
    (f := fun ps => ps.all fun p => p.segments.all (plainB false)) (by decide +kernel)
  refine ⟨ps, m, patOf plainExt false b!"/a/{v:x}/**/?.c" 3, [.literal, .constraint, .multiple, .multiple, .regex], h1, ?_,
    fits_of_peak _ (by decide), (h3 _ _ _).symm.trans (by decide +kernel), by decide +kernel⟩
  intro p hp s hs
  simp only [List.all_eq_true] at h2
  exact plain_of_B (h2 p hp s hs)

/-! ### C15 -/

/-- Reading a variable of a pattern found. -/
theorem variables_of {x : Ext} {ci : Bool} {ps : List Pattern} {m : Matcher} (hr : Registered x ci sortSiblings ps m)
    {path : Str} {segs : List USeg} {us : List Str} (h4 : segs.map (sliceU path) = us.map some) {p : Pattern} (hp : p ∈ ps) {labels : List MT}
    {bs : List (List Str)} (hone : All2 (fun s (b : List Str) => s.kind ≠ .multiple → b.length = 1) p.segments bs) (hjoin : bs.flatten = us)
    (hlab : labels = labelsOf p.segments bs) (hpieces : (pieces p.raw).length < 256) (name : Str) :
    pathVarText path p labels segs name = some ((valueIn name p.segments bs).getD []) := by
  have hval := pathVar_value name p.segments bs hone
  rw [hjoin, ← hlab] at hval
  obtain ⟨raw, p0, a, hparse, hpeq⟩ := registered_parsed hr p hp
  unfold pathVarText pathVar
  by_cases h0 : p.captureVarsLen = 0
  · rw [if_pos h0]
    have : varIndex name p.segments = none := by
      have hno : ∀ s ∈ p.segments, ¬ (s.kind = .capture ∨ s.kind = .constraint) := by
        by_cases hr0 : raw = b!"/"
        · subst hr0
          have : p.segments = [] := by
            rw [hpeq]
            have : PRes.ok { raw := b!"/" } = PRes.ok p0 := hparse
            simp only [PRes.ok.injEq] at this
            rw [← this]
          rw [this]; simp
        · have hraw : p.raw = raw := by
            rw [hpeq]
            show p0.raw = raw
            exact parse_raw hparse
          have hc := (c05_segments x ci raw p0 hparse hr0 (by rw [← hraw]; exact hpieces)).2.2.2.2
          have : p.segments.countP (fun s => s.kind = .capture ∨ s.kind = .constraint) = 0 := by
            have e1 : p0.segments = p.segments := by rw [hpeq]
            have e2 : p0.captureVarsLen = 0 := by rw [hpeq] at h0; exact h0
            rw [← e1, ← hc, e2]; rfl
          rw [List.countP_eq_zero] at this
          intro s hs; simpa using this s hs
      have gen : ∀ ss : List Segment, (∀ s ∈ ss, ¬ (s.kind = .capture ∨ s.kind = .constraint)) → varIndex name ss = none := by
        intro ss
        induction ss with
        | nil => intro _; rfl
        | cons s ss ih => intro h; rw [varIndex, if_neg (h s (by simp))]; exact ih fun t ht => h t (by simp [ht])
      exact gen _ hno
    rw [this] at hval
    simp [hval]
  · rw [if_neg h0]
    cases hv : varIndex name p.segments with
    | none => rw [hv] at hval; simp [hval]
    | some k =>
      rw [hv] at hval
      simp only [Option.bind_some] at hval
      rcases nthVar_congr (all2_of_map h4) k labels with ⟨e1, e2⟩ | ⟨u, v, e1, e2, e3⟩
      · rw [hval, e2]; simp only [e1]; rfl
      · rw [hval, e2]; simp only [e1]; exact e3

/-- C15: the variables of the pattern returned carry the texts they are laid over, any other name
gives the empty text. -/
theorem c15_variables_partial {x : Ext} {ci : Bool} (hl : FoldLaws x.eqFold)
    {ps : List Pattern} {m : Matcher} (hr : Registered x ci sortSiblings ps m) (hplain : ∀ p ∈ ps, ∀ s ∈ p.segments, Plain ci s)
    {path : Str} {buf : List USeg} (hb : buf.length = 19) (hlen : path.length ≤ 65535) (hf : Fits path)
    {fuel : Nat} {p : Pattern} {labels : List MT} (h : lookup x ci m path buf fuel = some (.found p labels))
    (hpieces : (pieces p.raw).length < 256) :
    ∃ segs bs, parseURLPath path buf = some segs ∧ Layout x ci p.segments (segmentsOf path) bs ∧
      ∀ name, pathVarText path p labels segs name = some ((valueIn name p.segments bs).getD []) := by
  have h := lookup_result hb hlen h
  obtain ⟨hp, bs, h2, hlab⟩ := found_layout hl (holds sortSiblings_perm hr) (registered_piece hr) hplain h.symm
  obtain ⟨segs, h3, h4, _⟩ := parse_texts path buf hb hlen
  rw [requestOf_fits hf] at h2 h4
  exact ⟨segs, bs, h3, h2, variables_of hr h4 hp (h2.parts.imp fun _ _ _ _ h => h.1) h2.joined hlab hpieces⟩

/-- Two variables around a `**`, one of them sharing its node with a variable of another name. -/
example : ∃ ps m p labels segs, Registered plainExt false sortSiblings ps m ∧ (∀ p ∈ ps, ∀ s ∈ p.segments, Plain false s) ∧
    lookup plainExt false m b!"/u1/q/./w//end/u2" freshBuf 20 = some (.found p labels) ∧ (pieces p.raw).length < 256 ∧
    parseURLPath b!"/u1/q/./w//end/u2" freshBuf = some segs ∧
    pathVarText b!"/u1/q/./w//end/u2" p labels segs b!"a" = some b!"u1" ∧
    pathVarText b!"/u1/q/./w//end/u2" p labels segs b!"b" = some b!"u2" ∧
    pathVarText b!"/u1/q/./w//end/u2" p labels segs b!"c" = some [] := by
  obtain ⟨ps, m, h1, h2, h3⟩ := checked_spec (x := plainExt) (ci := false) (l := [(b!"/{a}/**/end/{b}", 2), (b!"/{c}/p", 1)])
    (f := fun ps => ps.all fun p => p.segments.all (plainB false)) (by decide +kernel)
  refine ⟨ps, m, patOf plainExt false b!"/{a}/**/end/{b}" 2, [.capture, .multiple, .multiple, .multiple, .literal, .capture],
    [⟨1, 3⟩, ⟨4, 5⟩, ⟨6, 7⟩, ⟨8, 9⟩, ⟨11, 14⟩, ⟨15, 17⟩], h1, ?_,
    (h3 _ _ _).symm.trans (by decide +kernel), by decide +kernel, by decide +kernel, by decide +kernel, by decide +kernel, by decide +kernel⟩
  intro p hp s hs
  simp only [List.all_eq_true] at h2
  exact plain_of_B (h2 p hp s hs)

/-! ### C16 -/

/-- C16: for any trie whatsoever and any path, matching finishes, and further iterations do not
change the answer. -/
theorem c16_terminates (x : Ext) (ci : Bool) (m : Matcher) (path : Str) (buf : List USeg) (hb : buf.length = 19) :
    ∃ f r, ∀ g, f ≤ g → lookup x ci m path buf g = some r := by
  obtain ⟨segs, h1, h2⟩ := c11_in_bounds path buf hb
  obtain ⟨f, hf⟩ := matchM_eq (acc := matchUrl x ci path) matchUrl_star m segs h2
  exact ⟨f, answer (matchUrl x ci path) m segs, fun g hg => by simp only [lookup, h1, hf g hg]⟩

/-- A request that makes the search go back several times. -/
example : served plainExt false [(b!"/**/a/**/b", 3), (b!"/a/a/{x}/c", 2), (b!"/{y}/a/d", 1)] b!"/a/a/a/b" freshBuf 40 =
    some (.found (patOf plainExt false b!"/**/a/**/b" 3) [.literal, .multiple, .multiple, .literal]) := by decide +kernel

/-! ### C17 -/

/-- C17 fails: the pattern with `**` and 18 times `a` crashes the request with 19 times `a`. -/
theorem c17_violated : ∃ ps m fuel, Registered plainExt false sortSiblings ps m ∧
    lookup plainExt false m b!"/a/a/a/a/a/a/a/a/a/a/a/a/a/a/a/a/a/a/a" freshBuf fuel = some .panic := by
  obtain ⟨ps, m, h1, h2, h3⟩ := checked_spec (x := plainExt) (ci := false) (l := [(b!"/**/a/a/a/a/a/a/a/a/a/a/a/a/a/a/a/a/a/a", 1)])
    (f := fun _ => true) (by decide +kernel)
  exact ⟨ps, m, 40, h1, (h3 _ _ _).symm.trans (by decide +kernel)⟩

theorem matchText_some {x : Ext} {ci : Bool} {s : Segment} {u : Str} (hp : Piece ci s.val s) (hw : s.kind = .regex → WildSafe ci s.val u) :
    matchText x ci s u ≠ none := by
  unfold matchText
  cases hk : s.kind <;> simp only
  · simp
  · split
    · cases ci <;> simp only [Bool.false_eq_true, if_false, if_true] <;> split <;> simp
    · simp
  · generalize hv : s.val = v at hp
    cases hp <;> simp at hk
    simp only
    cases ci <;> simp only [Bool.false_eq_true, if_false, if_true] <;> split <;> simp
  · simp
  · have hn : NoDoubleStar s.val := by
      generalize hv : s.val = v at hp
      cases hp <;> simp at hk
      assumption
    cases h : Glob.regexSegmentMatch ci u s.val with
    | none => obtain ⟨r, hr⟩ := c04_terminates ci s.val u; rw [h] at hr; cases hr
    | some r =>
      cases r with
      | ret b => cases b <;> simp
      | panic => exact absurd (c03_no_crash_partial ci s.val u hn h).1 (hw hk)
  · simp
  · simp

/-- C17: matching does not crash when every registered pattern has at most 18 segments or no `**`, or has 19 and ends
with `**`, and the wildcards are in the safe situation of C03 for the request. -/
theorem c17_no_crash_partial {x : Ext} {ci : Bool}
    {ps : List Pattern} {m : Matcher} (hr : Registered x ci sortSiblings ps m)
    (hdeep : ∀ p ∈ ps, p.segments.length ≤ 18 ∨ (∀ s ∈ p.segments, s.kind ≠ .multiple) ∨
      (p.segments.length ≤ 19 ∧ ∃ s, p.segments.getLast? = some s ∧ s.kind = .multiple))
    {path : Str} {buf : List USeg} (hb : buf.length = 19) (hlen : path.length ≤ 65535)
    (hwild : ∀ p ∈ ps, ∀ s ∈ p.segments, s.kind = .regex → ∀ u ∈ segmentsOf path, WildSafe ci s.val u)
    (fuel : Nat) : lookup x ci m path buf fuel ≠ some .panic := by
  intro h
  have h := lookup_result hb hlen h
  by_cases hf : Fits path
  · rw [requestOf_fits hf] at h
    have h19 : (segmentsOf path).length ≤ 19 := hf _ (List.prefix_refl _)
    refine answer_no_panic ?_ h.symm
    refine tryC_no_panic (fun _ _ _ => matchText_kind) _ _ (Nat.le_refl _) _ _ _ ?_ ?_
    · intro s hs u hu
      obtain ⟨p, hp, hsp⟩ := (holds sortSiblings_perm hr).nodes s hs
      exact matchText_some (registered_piece hr p hp s hsp) fun hk => hwild p hp s hsp hk u hu
    · intro l hl
      obtain ⟨p, hp, ⟨t, h1, h2⟩, _⟩ := registered_thru sortSiblings_perm hr l hl
      rcases hdeep p hp with hd | hd | ⟨hd, s, hs, hm⟩
      · left
        have := h2.length
        have := h1.length_le
        omega
      · refine .inr (.inl ⟨by omega, fun c hc => ?_⟩)
        obtain ⟨s, hs, hcs⟩ := h2.mem_left hc
        rw [on_kind hcs]
        exact hd s (h1.subset hs)
      · have h3 := h2.length
        have h4 := h1.length_le
        by_cases h5 : l.length ≤ 18
        · exact .inl (by omega)
        · refine .inr (.inr ⟨by omega, ?_⟩)
          have := h1.eq_of_length (by omega)
          subst this
          have hne : l ≠ [] := by rintro rfl; simp at h5
          rw [List.getLast?_eq_getElem?, ← h3] at hs
          have h6 : l[l.length - 1]? = some (l.getLast hne) := by rw [← List.getLast?_eq_getElem?, List.getLast?_eq_some_getLast hne]
          obtain ⟨b, h7, h8⟩ := h2.getElem? _ _ h6
          rw [hs] at h7
          cases h7
          exact ⟨_, List.getLast?_eq_some_getLast hne, by rw [on_kind h8]; exact hm⟩
  · rw [requestOf_over hf] at h
    refine answer_no_panic (us := ([] : List Str)) ?_ h.symm
    simp [tryC_nil]

/-- 18 segments with `**`, 19 without and 19 with one at the end are accepted by the hypotheses. -/
example : ∃ ps m, Registered plainExt false sortSiblings ps m ∧ ps.length = 4 ∧
    (∀ p ∈ ps, p.segments.length ≤ 18 ∨ (∀ s ∈ p.segments, s.kind ≠ .multiple) ∨
      (p.segments.length ≤ 19 ∧ ∃ s, p.segments.getLast? = some s ∧ s.kind = .multiple)) ∧
    (∀ p ∈ ps, ∀ s ∈ p.segments, s.kind = .regex → ∀ u ∈ segmentsOf b!"/a/b/index.html", WildSafe false s.val u) := by
  obtain ⟨ps, m, h1, h2, h3⟩ := checked_spec (x := plainExt) (ci := false)
    (l := [(b!"/**/a/a/a/a/a/a/a/a/a/a/a/a/a/a/a/a/a", 1), (b!"/a/a/a/a/a/a/a/a/a/a/a/a/a/a/a/a/a/a/a", 2), (b!"/a/b/x*", 3), (b!"/b/**/a/a/a/a/a/a/a/a/a/a/a/a/a/a/a/a/**", 4)])
    (f := fun ps => ps.length = 4 && (ps.all fun p => p.segments.length ≤ 18 || p.segments.all (·.kind ≠ .multiple) ||
        (p.segments.length ≤ 19 && p.segments.getLast?.any (·.kind = .multiple))) &&
      (ps.all fun p => p.segments.all fun s => s.kind ≠ .regex || s.val = b!"x*")) (by decide +kernel)
  simp only [Bool.and_eq_true, List.all_eq_true, Bool.or_eq_true, decide_eq_true_eq] at h2
  refine ⟨ps, m, h1, h2.1.1, fun p hp => ?_, ?_⟩
  · rcases h2.1.2 p hp with (h | h) | ⟨h, h'⟩
    · exact .inl h
    · exact .inr (.inl h)
    · cases hs : p.segments.getLast? with
      | none => rw [hs] at h'; cases h'
      | some s => rw [hs] at h'; exact .inr (.inr ⟨h, s, rfl, by simpa using h'⟩)
  intro p hp s hs hk u hu
  rcases h2.2 p hp s hs with h | h
  · exact absurd hk h
  · rw [h]
    rintro ⟨a, d, e, b, c, h, _⟩
    have := congrArg List.length h
    simp at this
    omega

/-! ### C24 -/

/-- C24 fails: `/a/…/a/..` with 20 times `a` overflows although its normalised form has 19 segments. -/
theorem c24_violated : ∃ ps m path path' fuel r, Registered plainExt false sortSiblings ps m ∧ segmentsOf path = segmentsOf path' ∧
    lookup plainExt false m path freshBuf fuel = some .none ∧ lookup plainExt false m path' freshBuf fuel = some r ∧ r ≠ .none := by
  obtain ⟨ps, m, h1, h2, h3⟩ := checked_spec (x := plainExt) (ci := false) (l := [(b!"/**", 1)]) (f := fun _ => true) (by decide +kernel)
  exact ⟨ps, m, b!"/a/a/a/a/a/a/a/a/a/a/a/a/a/a/a/a/a/a/a/a/..", b!"/a/a/a/a/a/a/a/a/a/a/a/a/a/a/a/a/a/a/a", 40,
    .found (patOf plainExt false b!"/**" 1) (List.replicate 19 .multiple), h1, by decide +kernel, (h3 _ _ _).symm.trans (by decide +kernel),
    (h3 _ _ _).symm.trans (by decide +kernel), by simp⟩

theorem pathVarText_texts {path : Str} {p : Pattern} {labels : List MT} {segs : List USeg} {ts : List Str}
    (h : segs.map (sliceU path) = ts.map some) (name : Str) :
    pathVarText path p labels segs name = some ((pathVar p labels ts name).getD []) := by
  unfold pathVarText pathVar
  by_cases h0 : p.captureVarsLen = 0
  · simp [h0]
  · simp only [if_neg h0]
    cases varIndex name p.segments with
    | none => simp
    | some k =>
      simp only
      rcases nthVar_congr (all2_of_map h) k labels with ⟨e1, e2⟩ | ⟨u, v, e1, e2, e3⟩
      · rw [e1, e2]; rfl
      · rw [e1, e2]; exact e3

/-- C24: two paths with the same normalised segments, neither overflowing on the way, get the same
answer from any trie, with the same path variables. -/
theorem c24_spelling_partial (x : Ext) (ci : Bool) (m : Matcher) (path path' : Str) (buf buf' : List USeg)
    (hb : buf.length = 19) (hb' : buf'.length = 19) (hlen : path.length ≤ 65535) (hlen' : path'.length ≤ 65535)
    (hf : Fits path) (hf' : Fits path') (h : segmentsOf path = segmentsOf path') :
    ∃ f segs segs', parseURLPath path buf = some segs ∧ parseURLPath path' buf' = some segs' ∧
      (∀ g, f ≤ g → lookup x ci m path buf g = lookup x ci m path' buf' g ∧ lookup x ci m path buf g ≠ none) ∧
      ∀ p labels name, pathVarText path p labels segs name = pathVarText path' p labels segs' name := by
  obtain ⟨f, h1⟩ := lookup_eq x ci m path buf hb hlen
  obtain ⟨f', h1'⟩ := lookup_eq x ci m path' buf' hb' hlen'
  obtain ⟨segs, h2, h3, _⟩ := parse_texts path buf hb hlen
  obtain ⟨segs', h2', h3', _⟩ := parse_texts path' buf' hb' hlen'
  rw [requestOf_fits hf] at h1 h3
  rw [requestOf_fits hf', ← h] at h1' h3'
  refine ⟨max f f', segs, segs', h2, h2', fun g hg => ?_, fun p labels name => ?_⟩
  · rw [h1 g (by omega), h1' g (by omega)]; simp
  · rw [pathVarText_texts h3, pathVarText_texts h3']

/-- C24, exactly: two spellings of the same path are answered differently if and only if one of them passes the limit of 19 segments on
the way, the other does not, and the answer of the latter is not the answer of `/`. -/
theorem c24_exact (x : Ext) (ci : Bool) (m : Matcher) (path path' : Str) (buf buf' buf0 : List USeg)
    (hb : buf.length = 19) (hb' : buf'.length = 19) (hb0 : buf0.length = 19) (hlen : path.length ≤ 65535) (hlen' : path'.length ≤ 65535)
    (h : segmentsOf path = segmentsOf path') :
    ∃ f, ∀ g, f ≤ g → (lookup x ci m path buf g ≠ lookup x ci m path' buf' g ↔
      (Fits path ∧ ¬ Fits path' ∧ lookup x ci m path buf g ≠ lookup x ci m b!"/" buf0 g) ∨
      (¬ Fits path ∧ Fits path' ∧ lookup x ci m path' buf' g ≠ lookup x ci m b!"/" buf0 g)) := by
  obtain ⟨f, h1⟩ := lookup_eq x ci m path buf hb hlen
  obtain ⟨f', h1'⟩ := lookup_eq x ci m path' buf' hb' hlen'
  obtain ⟨f0, h0⟩ := lookup_eq x ci m b!"/" buf0 hb0 (by decide)
  rw [requestOf_fits (fits_of_peak _ (by decide))] at h0
  refine ⟨max f (max f' f0), fun g hg => ?_⟩
  rw [h1 g (by omega), h1' g (by omega), h0 g (by omega)]
  by_cases hf : Fits path <;> by_cases hf' : Fits path' <;>
    simp [requestOf, hf, hf', h, show segmentsOf b!"/" = [] from by decide, eq_comm]

/-- A path that passes the limit and a spelling of it that does not. -/
example : segmentsOf b!"/a/a/a/a/a/a/a/a/a/a/a/a/a/a/a/a/a/a/a/a/.." = segmentsOf b!"/a/a/a/a/a/a/a/a/a/a/a/a/a/a/a/a/a/a/a" ∧
    Fits b!"/a/a/a/a/a/a/a/a/a/a/a/a/a/a/a/a/a/a/a" :=
  ⟨by decide +kernel, fits_of_peak _ (by decide +kernel)⟩

example : Fits b!"//a/./b//c/../" ∧ Fits b!"/a/./b" ∧ segmentsOf b!"//a/./b//c/../" = segmentsOf b!"/a/./b" ∧
    segmentsOf b!"/a/./b" = [b!"a", b!".", b!"b"] :=
  ⟨fits_of_peak _ (by decide), fits_of_peak _ (by decide), by decide, by decide⟩

end Gofre.Props
