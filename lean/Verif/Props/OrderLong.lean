import Verif.Props.ShadowServed

/-! # C19 and C20 with long patterns and several `**` -/

namespace Gofre.Props
open Gofre.Path
open Gofre.Spec (Route Built Registered Describes MoreSpecific segmentsOf pieces)

/-- The routes of `c20_violated_long`: literals, variables and `*` only, one of them with 20 pieces. -/
def longRoutes : List (Str × Nat) := [(b!"/a/{b}", 1), (b!"/a/*", 2), (b!"/a/{b}/a/a/a/a/a/a/a/a/a/a/a/a/a/a/a/a/a/a", 3)]

/-- C20 fails for a pattern of 20 pieces, even without `**`, wildcards and constraints: depending on the order of registration `GET /a/q` is answered by `/a/{b}` or by
`/a/*`. -/
theorem c20_violated_long : ∃ es es' r r' fuel, Built plainExt id sortSiblings false es r ∧ Built plainExt id sortSiblings false es' r' ∧
    es = longRoutes.map (fun e => ⟨b!"GET", e.1, e.2⟩) ∧ es.Perm es' ∧
    serveHTTP plainExt id r (fun _ => .responds false) b!"GET" b!"/a/q" freshBuf fuel = some [.ran 2, .wrote 2] ∧
    serveHTTP plainExt id r' (fun _ => .responds false) b!"GET" b!"/a/q" freshBuf fuel = some [.ran 1, .wrote 1] := by
  obtain ⟨r, h1, h2⟩ := serve0_spec (l := longRoutes) (behave := fun _ => .responds false)
    (path := b!"/a/q") (fuel := 40) (evs := [.ran 2, .wrote 2]) (by decide +kernel)
  obtain ⟨r', h1', h2'⟩ := serve0_spec (l := longRoutes.reverse) (behave := fun _ => .responds false)
    (path := b!"/a/q") (fuel := 40) (evs := [.ran 1, .wrote 1]) (by decide +kernel)
  exact ⟨_, _, r, r', 40, h1, h1', rfl, (List.reverse_perm longRoutes).symm.map _, h2, h2'⟩

/-- The routes of `c20_violated_two_stars`. -/
def twoStarRoutes : List (Str × Nat) := [(b!"/a/a/a/a/a/{b}", 1), (b!"/a/a/a/a/a/*", 2), (b!"/a/a/a/a/a/{b}/**/a/**/a", 3)]

/-- C20 fails for a pattern with two `**`, of 10 pieces and beside others without wildcards and constraints. -/
theorem c20_violated_two_stars : ∃ es es' r r' fuel, Built plainExt id sortSiblings false es r ∧ Built plainExt id sortSiblings false es' r' ∧
    es = twoStarRoutes.map (fun e => ⟨b!"GET", e.1, e.2⟩) ∧ es.Perm es' ∧
    serveHTTP plainExt id r (fun _ => .responds false) b!"GET" b!"/a/a/a/a/a/q" freshBuf fuel = some [.ran 2, .wrote 2] ∧
    serveHTTP plainExt id r' (fun _ => .responds false) b!"GET" b!"/a/a/a/a/a/q" freshBuf fuel = some [.ran 1, .wrote 1] := by
  obtain ⟨r, h1, h2⟩ := serve0_spec (l := twoStarRoutes) (behave := fun _ => .responds false)
    (path := b!"/a/a/a/a/a/q") (fuel := 60) (evs := [.ran 2, .wrote 2]) (by decide +kernel)
  obtain ⟨r', h1', h2'⟩ := serve0_spec (l := twoStarRoutes.reverse) (behave := fun _ => .responds false)
    (path := b!"/a/a/a/a/a/q") (fuel := 60) (evs := [.ran 1, .wrote 1]) (by decide +kernel)
  exact ⟨_, _, r, r', 60, h1, h1', rfl, (List.reverse_perm twoStarRoutes).symm.map _, h2, h2'⟩

/-- C19 fails for a pattern of 20 pieces: `/a/*` is found for `/a/q` although `/a/{b}` describes it, too, and is more specific. -/
theorem c19_violated_long : ∃ ps m p q labels fuel, Registered plainExt false sortSiblings ps m ∧ p ∈ ps ∧ q ∈ ps ∧ p.raw = b!"/a/*" ∧ q.raw = b!"/a/{b}" ∧
    Describes plainExt false q.segments (segmentsOf b!"/a/q") ∧ lookup plainExt false m b!"/a/q" freshBuf fuel = some (.found p labels) ∧
    ¬ MoreSpecific (p.segments.map (·.kind)) (q.segments.map (·.kind)) := by
  obtain ⟨ps, m, h1, h2, h3⟩ := checked_spec (x := plainExt) (ci := false) (l := longRoutes)
    (f := fun ps => ps.contains (patOf plainExt false b!"/a/*" 2) && ps.contains (patOf plainExt false b!"/a/{b}" 1)) (by decide +kernel)
  simp only [Bool.and_eq_true, List.contains_iff_mem] at h2
  refine ⟨ps, m, patOf plainExt false b!"/a/*" 2, patOf plainExt false b!"/a/{b}" 1, [.literal, .single], 20, h1, h2.1, h2.2, rfl, rfl, ?_,
    (h3 _ _ _).symm.trans (by decide +kernel), ?_⟩
  · have hseg : (patOf plainExt false b!"/a/{b}" 1).segments = [{ val := b!"a", kind := .literal }, { val := b!"{b}", kind := .capture, varName := b!"b" }] := by decide +kernel
    rw [hseg]
    exact (describes_one (by decide)).2 ⟨b!"a", [b!"q"], by decide, .inl rfl, (describes_one (by decide)).2 ⟨b!"q", [], rfl, trivial, describes_nil.2 rfl⟩⟩
  · intro h
    have := h 1 .single .capture (by decide +kernel) (by decide +kernel) (by decide +kernel)
    revert this
    decide

end Gofre.Props
