import Verif.Proofs.Single
import Verif.Props.Complete

/-!
# Theorems about patterns with `**` in the middle

Property C18, beyond the patterns of `Props/Complete.lean`.
-/

namespace Gofre.Props
open Gofre.Path Gofre.Spec

/-- C18 with `**` anywhere: a request described by a registered pattern is served, provided that
wherever a `**` inside some pattern can be reached the rest of that pattern describes an end of
the request, that no beginning of a pattern describes the whole request, and that the wildcards
are compared exactly.  Patterns with a `**` have at most 18 segments. -/
theorem c18_stars_partial {x : Ext} {ci : Bool} (hl : FoldLaws x.eqFold)
    {ps : List Pattern} {m : Matcher} (hr : Registered x ci sortSiblings ps m) (hplain : ∀ p ∈ ps, ∀ s ∈ p.segments, Plain ci s)
    (hfew : ps.length < 65536) (hlong : ∀ p ∈ ps, (pieces p.raw).length < 256)
    (hdeep : ∀ p ∈ ps, p.segments.length ≤ 18 ∨ ∀ s ∈ p.segments, s.kind ≠ .multiple)
    {path : Str} {buf : List USeg} (hb : buf.length = 19) (hlen : path.length ≤ 65535) (hf : Fits path)
    (hfaith : Faithful ci ps (segmentsOf path))
    (hin : NoneInside x ci ps (segmentsOf path)) (hcont : StarsContinue x ci ps (segmentsOf path))
    {p : Pattern} (hp : p ∈ ps) (hd : Describes x ci p.segments (segmentsOf path)) :
    ∃ f q labels, q ∈ ps ∧ ∀ g, f ≤ g → lookup x ci m path buf g = some (.found q labels) := by
  obtain ⟨f, hfu⟩ := lookup_eq x ci m path buf hb hlen
  rw [requestOf_fits hf] at hfu
  have h19 : (segmentsOf path).length ≤ 19 := hf _ (List.prefix_refl _)
  by_cases hne : segmentsOf path = []
  · rw [hne] at hd hfu
    have hroot := (holds sortSiblings_perm hr).rootAdded p hp (describes_ne hd)
    refine ⟨f, p, [], hp, fun g hg => ?_⟩
    rw [hfu g hg]
    simp [answer, hroot]
  · rcases answer_right hl sortSiblings_perm hr hplain hfew hlong hdeep h19 hfaith hin hcont hne with ⟨q, ls, h1, h2⟩ | ⟨_, h2⟩
    · exact ⟨f, q, ls, h2, fun g hg => by rw [hfu g hg, h1]⟩
    · exact absurd hd (h2 p hp)

/-- C18 for one pattern: when only one pattern is registered (others may have been refused), it
serves every request it describes, wherever its `**` are.  With a `**` it has at most 18 segments, or 19
with `**` as the last, and its wildcards are compared exactly. -/
theorem c18_single_partial {x : Ext} {ci : Bool} (hl : FoldLaws x.eqFold)
    {p : Pattern} {m : Matcher} (hr : Registered x ci sortSiblings [p] m) (hplain : ∀ s ∈ p.segments, Plain ci s)
    (hlong : (pieces p.raw).length < 256) (hdeep : p.segments.length ≤ 18 ∨ (∀ s ∈ p.segments, s.kind ≠ .multiple) ∨
      (p.segments.length ≤ 19 ∧ ∃ s, p.segments.getLast? = some s ∧ s.kind = .multiple))
    {path : Str} {buf : List USeg} (hb : buf.length = 19) (hlen : path.length ≤ 65535) (hf : Fits path)
    (hfaith : Faithful ci [p] (segmentsOf path)) (hd : Describes x ci p.segments (segmentsOf path)) :
    ∃ f labels, ∀ g, f ≤ g → lookup x ci m path buf g = some (.found p labels) := by
  obtain ⟨f, hfu⟩ := lookup_eq x ci m path buf hb hlen
  rw [requestOf_fits hf] at hfu
  have h19 : (segmentsOf path).length ≤ 19 := hf _ (List.prefix_refl _)
  by_cases hne : segmentsOf path = []
  · rw [hne] at hd hfu
    have hroot := (holds sortSiblings_perm hr).rootAdded p (by simp) (describes_ne hd)
    refine ⟨f, [], fun g hg => ?_⟩
    rw [hfu g hg]
    simp [answer, hroot]
  · rcases answer_single hl sortSiblings_perm hr hplain hlong h19 hfaith hne hd with ⟨ls, h1⟩ | h1
    · exact ⟨f, ls, fun g hg => by rw [hfu g hg, h1]⟩
    · have h := hfu f (Nat.le_refl _)
      rw [h1] at h
      exact absurd h (c17_no_crash_partial hr (by simpa using hdeep) hb hlen (fun q hq s hs hk u hu => (hfaith.wild q hq s hs hk u hu).1) f)

/-- C14 and C18 for one pattern together: it serves exactly the requests it describes, all others are
not found. -/
theorem c18_single_exact_partial {x : Ext} {ci : Bool} (hl : FoldLaws x.eqFold)
    {p : Pattern} {m : Matcher} (hr : Registered x ci sortSiblings [p] m) (hplain : ∀ s ∈ p.segments, Plain ci s)
    (hlong : (pieces p.raw).length < 256) (hdeep : p.segments.length ≤ 18 ∨ (∀ s ∈ p.segments, s.kind ≠ .multiple) ∨
      (p.segments.length ≤ 19 ∧ ∃ s, p.segments.getLast? = some s ∧ s.kind = .multiple))
    {path : Str} {buf : List USeg} (hb : buf.length = 19) (hlen : path.length ≤ 65535) (hf : Fits path)
    (hfaith : Faithful ci [p] (segmentsOf path)) :
    ∃ f, ∀ g, f ≤ g → (Describes x ci p.segments (segmentsOf path) ∧ ∃ labels, lookup x ci m path buf g = some (.found p labels)) ∨
      (¬ Describes x ci p.segments (segmentsOf path) ∧ lookup x ci m path buf g = some .none) := by
  by_cases hd : Describes x ci p.segments (segmentsOf path)
  · obtain ⟨f, labels, h⟩ := c18_single_partial hl hr hplain hlong hdeep hb hlen hf hfaith hd
    exact ⟨f, fun g hg => .inl ⟨hd, labels, h g hg⟩⟩
  · obtain ⟨f, hfu⟩ := lookup_eq x ci m path buf hb hlen
    refine ⟨f, fun g hg => .inr ⟨hd, ?_⟩⟩
    have h := hfu g hg
    cases ha : answer (matchText x ci) m (requestOf path) with
    | none => rw [h, ha]
    | panic =>
      rw [ha] at h
      exact absurd h (c17_no_crash_partial hr (by simpa using hdeep) hb hlen
        (fun q hq s hs hk u hu => (hfaith.wild q hq s hs hk u hu).1) g)
    | found q ls =>
      rw [ha] at h
      obtain ⟨h1, h2⟩ := c14_described_partial hl hr (by simpa using hplain) hb hlen hf h
      rw [List.mem_singleton] at h1
      subst h1
      exact absurd h2 hd

/-! ### Examples -/

/-- One pattern with two `**` serves a request, although the first place where the first `**` could
end is not the right one. -/
example : ∃ m p, Registered plainExt false sortSiblings [p] m ∧ p.raw = b!"/a/**/z/{v:y}/**" ∧ (∀ s ∈ p.segments, Plain false s) ∧
    p.segments.length ≤ 18 ∧ Fits b!"/a/z/b/z/xyz/c" ∧ Faithful false [p] (segmentsOf b!"/a/z/b/z/xyz/c") ∧
    Describes plainExt false p.segments (segmentsOf b!"/a/z/b/z/xyz/c") ∧
    lookup plainExt false m b!"/a/z/b/z/xyz/c" freshBuf 40 = some (.found p [.literal, .multiple, .multiple, .literal, .constraint, .multiple]) := by
  obtain ⟨ps, m, h1, h2, h3⟩ := checked_spec (x := plainExt) (ci := false) (l := [(b!"/a/**/z/{v:y}/**", 1)])
    (f := fun ps => ps == [patOf plainExt false b!"/a/**/z/{v:y}/**" 1]) (by decide +kernel)
  rw [beq_iff_eq] at h2
  subst h2
  have hseg : (patOf plainExt false b!"/a/**/z/{v:y}/**" 1).segments =
      [{ val := b!"a", kind := .literal }, { val := b!"**", kind := .multiple }, { val := b!"z", kind := .literal },
       { val := b!"{v:y}", kind := .constraint, varName := b!"v", re := some b!"y" }, { val := b!"**", kind := .multiple }] := by decide +kernel
  refine ⟨m, _, h1, by decide +kernel, ?_, by decide +kernel, fits_of_peak _ (by decide), ⟨?_, by simp, by simp⟩, ?_, ?_⟩
  · intro s hs
    have : (patOf plainExt false b!"/a/**/z/{v:y}/**" 1).segments.all (plainB false) = true := by decide +kernel
    rw [List.all_eq_true] at this
    exact plain_of_B (this s hs)
  · intro p hp s hs hk
    rw [List.mem_singleton] at hp
    subst hp
    rw [hseg] at hs
    simp at hs
    rcases hs with rfl | rfl | rfl | rfl | rfl <;> cases hk
  · rw [hseg]
    refine (describes_one (by decide)).2 ⟨b!"a", [b!"z", b!"b", b!"z", b!"xyz", b!"c"], by decide, .inl rfl, (describes_star rfl).2
      ⟨[b!"z", b!"b"], [b!"z", b!"xyz", b!"c"], rfl, by simp, (describes_one (by decide)).2 ⟨b!"z", [b!"xyz", b!"c"], rfl, .inl rfl,
        (describes_one (by decide)).2 ⟨b!"xyz", [b!"c"], rfl, ⟨b!"y", rfl, by decide⟩, (describes_star rfl).2 ⟨[b!"c"], [], rfl, by simp, describes_nil.2 rfl⟩⟩⟩⟩⟩
  · exact (h3 _ _ _).symm.trans (by decide +kernel)

/-- With `/a/**/z`, `/{x}/b/*` and `/a/q` registered, the conditions are met for the request
`/a/b/z`, which two of the patterns describe. -/
example : ∃ ps m p q, Registered plainExt false sortSiblings ps m ∧ ps.length = 3 ∧ p ∈ ps ∧ q ∈ ps ∧ p ≠ q ∧
    Describes plainExt false p.segments (segmentsOf b!"/a/b/z") ∧ Describes plainExt false q.segments (segmentsOf b!"/a/b/z") ∧
    Faithful false ps (segmentsOf b!"/a/b/z") ∧ NoneInside plainExt false ps (segmentsOf b!"/a/b/z") ∧
    StarsContinue plainExt false ps (segmentsOf b!"/a/b/z") ∧ ¬ (∀ p ∈ ps, StarsLast p.segments) := by
  obtain ⟨ps, m, h1, h2, h3⟩ := checked_spec (x := plainExt) (ci := false) (l := [(b!"/a/q", 3), (b!"/{x}/b/*", 2), (b!"/a/**/z", 1)])
    (f := fun ps => ps == [patOf plainExt false b!"/a/q" 3, patOf plainExt false b!"/{x}/b/*" 2, patOf plainExt false b!"/a/**/z" 1]) (by decide +kernel)
  rw [beq_iff_eq] at h2
  subst h2
  have e1 : (patOf plainExt false b!"/a/**/z" 1).segments =
      [{ val := b!"a", kind := .literal }, { val := b!"**", kind := .multiple }, { val := b!"z", kind := .literal }] := by decide +kernel
  have e2 : (patOf plainExt false b!"/{x}/b/*" 2).segments =
      [{ val := b!"{x}", kind := .capture, varName := b!"x" }, { val := b!"b", kind := .literal }, { val := b!"*", kind := .single }] := by decide +kernel
  have e3 : (patOf plainExt false b!"/a/q" 3).segments = [{ val := b!"a", kind := .literal }, { val := b!"q", kind := .literal }] := by decide +kernel
  have eu : segmentsOf b!"/a/b/z" = [b!"a", b!"b", b!"z"] := by decide
  refine ⟨_, m, patOf plainExt false b!"/a/**/z" 1, patOf plainExt false b!"/{x}/b/*" 2, h1, rfl, by simp, by simp, by decide +kernel, ?_, ?_,
    ⟨?_, by simp, by simp⟩, ?_, ?_, ?_⟩
  · rw [e1, eu]
    exact (describes_one (by decide)).2 ⟨_, _, rfl, .inl rfl, (describes_star rfl).2 ⟨[b!"b"], [b!"z"], rfl, by simp,
      (describes_one (by decide)).2 ⟨_, _, rfl, .inl rfl, describes_nil.2 rfl⟩⟩⟩
  · rw [e2, eu]
    exact (describes_one (by decide)).2 ⟨_, _, rfl, trivial, (describes_one (by decide)).2 ⟨_, _, rfl, .inl rfl,
      (describes_one (by decide)).2 ⟨_, _, rfl, trivial, describes_nil.2 rfl⟩⟩⟩
  · intro p hp s hs hk
    simp only [List.mem_cons, List.not_mem_nil, or_false] at hp
    rcases hp with rfl | rfl | rfl
    · rw [e3] at hs; simp at hs; rcases hs with rfl | rfl <;> cases hk
    · rw [e2] at hs; simp at hs; rcases hs with rfl | rfl | rfl <;> cases hk
    · rw [e1] at hs; simp at hs; rcases hs with rfl | rfl | rfl <;> cases hk
  · intro p hp a s b he hk hb hd
    rw [eu] at hd
    simp only [List.mem_cons, List.not_mem_nil, or_false] at hp
    have hshort : ∀ k, (a ++ s :: b).length = k → k ≤ 3 → (∀ t ∈ a ++ [s], t.kind ≠ .multiple) → False := by
      intro k h1 h2 h3
      have h4 := describes_length h3 hd
      have h5 := List.length_pos_iff.2 hb
      simp at h1 h4
      omega
    have hmem : ∀ t ∈ a ++ [s], t ∈ p.segments := by
      intro t ht; rw [he]; simp at ht ⊢; rcases ht with h | h <;> simp [h]
    rcases hp with rfl | rfl | rfl
    · rw [e3] at he hmem
      refine hshort 2 (by rw [← he]; rfl) (by omega) fun t ht => ?_
      have := hmem t ht; simp at this; rcases this with rfl | rfl <;> decide
    · rw [e2] at he hmem
      refine hshort 3 (by rw [← he]; rfl) (by omega) fun t ht => ?_
      have := hmem t ht; simp at this; rcases this with rfl | rfl | rfl <;> decide
    · rw [e1] at he
      match a, he with
      | [], he =>
        cases he
        obtain ⟨_, _, h1, _, h2⟩ := (describes_one (by decide)).1 hd
        cases h1
        rw [describes_nil] at h2
        cases h2
      | [_], he => cases he; exact hk rfl
      | [_, _], he => cases he; exact hb rfl
      | _ :: _ :: _ :: _, he => simp at he
  · intro p hp a s b he hk hb vs ws hu hws hbeg
    simp only [List.mem_cons, List.not_mem_nil, or_false] at hp
    have hmem : s ∈ p.segments := by rw [he]; simp
    rcases hp with rfl | rfl | rfl
    · rw [e3] at hmem; simp at hmem; rcases hmem with rfl | rfl <;> cases hk
    · rw [e2] at hmem; simp at hmem; rcases hmem with rfl | rfl | rfl <;> cases hk
    · rw [e1] at he
      match a, he with
      | [], he => cases he; cases hk
      | [_], he =>
        cases he
        obtain ⟨u, us, rfl, _, h2⟩ := (begins_one (by decide)).1 hbeg
        rw [begins_nil] at h2
        subst h2
        rw [eu] at hu
        simp at hu
        refine ⟨[b!"b"], [b!"z"], hu.2.symm, (describes_one (by decide)).2 ⟨_, _, rfl, .inl rfl, describes_nil.2 rfl⟩⟩
      | [_, _], he => cases he; exact absurd rfl hb
      | _ :: _ :: _ :: _, he => simp at he
  · intro h
    have := h (patOf plainExt false b!"/a/**/z" 1) (by simp) [{ val := b!"a", kind := .literal }] { val := b!"**", kind := .multiple }
      [{ val := b!"z", kind := .literal }] (by rw [e1]; rfl) rfl
    cases this

end Gofre.Props
