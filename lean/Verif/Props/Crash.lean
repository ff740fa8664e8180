import Verif.Proofs.Crash
import Verif.Props.Stars

/-!
# Theorems about requests that crash the search

Property C17, beyond `Props/Route.lean`.
-/

namespace Gofre.Props
open Gofre.Path Gofre.Spec

/-- C17, exactly, for one registered pattern: matching a request crashes if and only if the pattern has a 19th segment, which
is not `**`, and its first 19 segments describe the request up to some segment that is not its last.  The wildcards are compared
exactly; patterns with more than 19 segments of which the 19th is `**` are left out. -/
theorem c17_exact {x : Ext} {ci : Bool} (hl : FoldLaws x.eqFold)
    {p : Pattern} {m : Matcher} (hr : Registered x ci sortSiblings [p] m) (hplain : ∀ s ∈ p.segments, Plain ci s)
    (hlong : (pieces p.raw).length < 256) (hq : p.segments.length ≤ 19 ∨ ∃ t, p.segments[18]? = some t ∧ t.kind ≠ .multiple)
    {path : Str} {buf : List USeg} (hb : buf.length = 19) (hlen : path.length ≤ 65535) (hf : Fits path)
    (hfaith : Faithful ci [p] (segmentsOf path)) :
    ∃ f, ∀ g, f ≤ g → (lookup x ci m path buf g = some .panic ↔ ∃ t, p.segments[18]? = some t ∧ t.kind ≠ .multiple ∧
      ∃ vs ws, segmentsOf path = vs ++ ws ∧ ws ≠ [] ∧ Describes x ci (p.segments.take 19) vs) := by
  have h19 : (segmentsOf path).length ≤ 19 := hf _ (List.prefix_refl _)
  have hwild : ∀ q ∈ [p], ∀ s ∈ q.segments, s.kind = .regex → ∀ u ∈ segmentsOf path, WildSafe ci s.val u :=
    fun q hq s hs hk u hu => (hfaith.wild q hq s hs hk u hu).1
  by_cases ht : ∃ t, p.segments[18]? = some t ∧ t.kind ≠ .multiple
  · obtain ⟨t, ht, htm⟩ := ht
    have hne' : p.segments ≠ [] := by
      intro h
      rw [h] at ht
      cases ht
    rcases registered_max hr (by simp) hlong hne' with hg | ⟨_, hno⟩
    · obtain ⟨f, hfu⟩ := lookup_eq x ci m path buf hb hlen
      rw [requestOf_fits hf] at hfu
      refine ⟨f, fun g hg' => ?_⟩
      rw [hfu g hg', Option.some.injEq]
      by_cases hne : segmentsOf path = []
      · rw [hne]
        constructor
        · intro h
          exact absurd h (answer_no_panic (us := ([] : List Str)) (by simp [tryC_nil]))
        · rintro ⟨_, _, _, vs, ws, h1, h2, _⟩
          exact absurd (List.nil_eq_append_iff.1 h1).2 h2
      · rw [answer_crash hl sortSiblings_perm hr hplain hg ht htm h19 hfaith hne]
        exact ⟨fun h => ⟨t, ht, htm, h⟩, fun ⟨_, _, _, h⟩ => h⟩
    · refine ⟨0, fun g _ => ⟨fun h => absurd h (c17_no_crash_partial hr (fun q hq => ?_) hb hlen hwild g), ?_⟩⟩
      · rw [List.mem_singleton] at hq
        subst hq
        exact .inr (.inl hno)
      · rintro ⟨_, _, _, vs, ws, h1, h2, h3⟩
        have h4 := describes_length (fun s hs => hno s (List.mem_of_mem_take hs)) h3
        have h5 : 18 < p.segments.length := (List.getElem?_eq_some_iff.1 ht).1
        have h6 := List.length_pos_iff.2 h2
        rw [h1, List.length_append, h4, List.length_take] at h19
        omega
  · refine ⟨0, fun g _ => ⟨fun h => absurd h (c17_no_crash_partial hr (fun q hq' => ?_) hb hlen hwild g), fun ⟨t, h1, h2, _⟩ => absurd ⟨t, h1, h2⟩ ht⟩⟩
    rw [List.mem_singleton] at hq'
    subst hq'
    have hle := hq.resolve_right ht
    by_cases h18 : q.segments.length ≤ 18
    · exact .inl h18
    · have h9 : q.segments.length = 19 := by omega
      have h8 : q.segments[18]? = some (q.segments[18]'(by omega)) := List.getElem?_eq_getElem (by omega)
      refine .inr (.inr ⟨hle, q.segments[18]'(by omega), by rw [List.getLast?_eq_getElem?, show q.segments.length - 1 = 18 by omega]; exact h8, ?_⟩)
      exact Decidable.byContradiction fun hm => ht ⟨_, h8, hm⟩

/-- C14, C17 and C18 for one pattern together: what becomes of every request.  It crashes the search when the first 19 segments of the
pattern, the 19th not being `**`, describe a beginning of it; otherwise it is served when the pattern describes it and not found
when not. -/
theorem c18_single_all_partial {x : Ext} {ci : Bool} (hl : FoldLaws x.eqFold)
    {p : Pattern} {m : Matcher} (hr : Registered x ci sortSiblings [p] m) (hplain : ∀ s ∈ p.segments, Plain ci s)
    (hlong : (pieces p.raw).length < 256) (hq : p.segments.length ≤ 19 ∨ ∃ t, p.segments[18]? = some t ∧ t.kind ≠ .multiple)
    {path : Str} {buf : List USeg} (hb : buf.length = 19) (hlen : path.length ≤ 65535) (hf : Fits path)
    (hfaith : Faithful ci [p] (segmentsOf path)) {early : Prop}
    (hearly : early ↔ ∃ t, p.segments[18]? = some t ∧ t.kind ≠ .multiple ∧
      ∃ vs ws, segmentsOf path = vs ++ ws ∧ ws ≠ [] ∧ Describes x ci (p.segments.take 19) vs) :
    ∃ f, ∀ g, f ≤ g → (early ∧ lookup x ci m path buf g = some .panic) ∨
      (¬ early ∧ Describes x ci p.segments (segmentsOf path) ∧ ∃ labels, lookup x ci m path buf g = some (.found p labels)) ∨
      (¬ early ∧ ¬ Describes x ci p.segments (segmentsOf path) ∧ lookup x ci m path buf g = some .none) := by
  obtain ⟨f1, h1⟩ := c17_exact hl hr hplain hlong hq hb hlen hf hfaith
  obtain ⟨f2, h2⟩ := lookup_eq x ci m path buf hb hlen
  have h19 : (segmentsOf path).length ≤ 19 := hf _ (List.prefix_refl _)
  refine ⟨max f1 f2, fun g hg => ?_⟩
  replace h1 := h1 g (by omega)
  replace h2 := h2 g (by omega)
  rw [← hearly] at h1
  cases ha : answer (matchText x ci) m (requestOf path) with
  | panic =>
    rw [ha] at h2
    exact .inl ⟨h1.1 h2, h2⟩
  | found q ls =>
    rw [ha] at h2
    obtain ⟨h3, h4⟩ := c14_described_partial hl hr (by simpa using hplain) hb hlen hf h2
    rw [List.mem_singleton] at h3
    subst h3
    exact .inr (.inl ⟨fun e => (by rw [h1.2 e] at h2; cases h2), h4, ls, h2⟩)
  | none =>
    rw [ha] at h2
    refine .inr (.inr ⟨fun e => (by rw [h1.2 e] at h2; cases h2), fun hd => ?_, h2⟩)
    rw [requestOf_fits hf] at ha
    by_cases hne : segmentsOf path = []
    · rw [hne] at hd ha
      have hroot := (holds sortSiblings_perm hr).rootAdded p (by simp) (describes_ne hd)
      simp [answer, hroot] at ha
    · rcases answer_single hl sortSiblings_perm hr hplain hlong h19 hfaith hne hd with ⟨ls, h⟩ | h <;> rw [ha] at h <;> cases h

/-- The pattern with two `**` inside crashes on a request whose beginning it describes, as the theorem says. -/
example : ∃ m p, Registered plainExt false sortSiblings [p] m ∧ p.raw = b!"/**/a/a/a/a/a/a/a/a/**/a/a/a/a/a/a/a/a/z" ∧ (∀ s ∈ p.segments, Plain false s) ∧
    p.segments.length = 19 ∧ (∃ t, p.segments[18]? = some t ∧ t.kind ≠ .multiple) ∧ Fits b!"/a/a/a/a/a/a/a/a/a/a/a/a/a/a/a/a/z/b" ∧
    (∃ ws, segmentsOf b!"/a/a/a/a/a/a/a/a/a/a/a/a/a/a/a/a/z/b" = List.replicate 16 b!"a" ++ [b!"z"] ++ ws ∧ ws ≠ []) ∧
    Describes plainExt false p.segments (List.replicate 16 b!"a" ++ [b!"z"]) ∧
    Faithful false [p] (segmentsOf b!"/a/a/a/a/a/a/a/a/a/a/a/a/a/a/a/a/z/b") ∧
    lookup plainExt false m b!"/a/a/a/a/a/a/a/a/a/a/a/a/a/a/a/a/z/b" freshBuf 60 = some .panic := by
  obtain ⟨ps, m, h1, h2, h3⟩ := checked_spec (x := plainExt) (ci := false) (l := [(b!"/**/a/a/a/a/a/a/a/a/**/a/a/a/a/a/a/a/a/z", 1)])
    (f := fun ps => ps == [patOf plainExt false b!"/**/a/a/a/a/a/a/a/a/**/a/a/a/a/a/a/a/a/z" 1]) (by decide +kernel)
  rw [beq_iff_eq] at h2
  subst h2
  have hA : ∀ n (l : List Segment) (us : List Str), Describes plainExt false l us →
      Describes plainExt false (List.replicate n { val := b!"a", kind := .literal } ++ l) (List.replicate n b!"a" ++ us) := by
    intro n l us h
    induction n with
    | zero => exact h
    | succ n ih => exact (describes_one (by decide)).2 ⟨b!"a", _, rfl, .inl rfl, ih⟩
  have hseg : (patOf plainExt false b!"/**/a/a/a/a/a/a/a/a/**/a/a/a/a/a/a/a/a/z" 1).segments =
      { val := b!"**", kind := .multiple } :: (List.replicate 8 { val := b!"a", kind := .literal } ++
        { val := b!"**", kind := .multiple } :: (List.replicate 8 { val := b!"a", kind := .literal } ++ [{ val := b!"z", kind := .literal }])) := by decide +kernel
  refine ⟨m, _, h1, by decide +kernel, ?_, by decide +kernel, ⟨{ val := b!"z", kind := .literal }, by decide +kernel, by decide⟩, fits_of_peak _ (by decide),
    ⟨[b!"b"], by decide, by simp⟩, ?_, ⟨?_, by simp, by simp⟩, (h3 _ _ _).symm.trans (by decide +kernel)⟩
  · intro s hs
    have : (patOf plainExt false b!"/**/a/a/a/a/a/a/a/a/**/a/a/a/a/a/a/a/a/z" 1).segments.all (plainB false) = true := by decide +kernel
    rw [List.all_eq_true] at this
    exact plain_of_B (this s hs)
  · rw [hseg]
    refine (describes_star rfl).2 ⟨[], _, rfl, by simp, ?_⟩
    refine hA 8 _ (List.replicate 8 b!"a" ++ [b!"z"]) ((describes_star rfl).2 ⟨[], _, rfl, by simp, hA 8 _ [b!"z"] ?_⟩)
    exact (describes_one (by decide)).2 ⟨b!"z", [], rfl, .inl rfl, describes_nil.2 rfl⟩
  · intro q hq s hs hk
    rw [List.mem_singleton] at hq
    subst hq
    have : (patOf plainExt false b!"/**/a/a/a/a/a/a/a/a/**/a/a/a/a/a/a/a/a/z" 1).segments.all (·.kind ≠ .regex) = true := by decide +kernel
    rw [List.all_eq_true] at this
    simpa [hk] using this s hs

end Gofre.Props
