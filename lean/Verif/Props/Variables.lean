import Verif.Props.Route

/-! # C15: where variables go wrong -/

namespace Gofre.Props
open Gofre.Path Gofre.Spec

/-- A pattern with 256 variables among 257 pieces. -/
def manyVars : Str := (List.replicate 255 b!"/{a}").flatten ++ b!"/b/{x}"

/-- What is left of it, and what it answers to `/v`: all in one check. -/
def manyCheck (l : List (Str × Nat)) : Bool :=
  match build plainExt false sortSiblings l with
  | none => false
  | some (ps, m) => ps.all (fun p => p.segments.all (plainB false)) &&
    match lookup plainExt false m b!"/v" freshBuf 20 with
    | some (.found p labels) => labels == [.capture] && p.captureVarsLen == 0 &&
        p.segments == [{ val := b!"{x}", kind := .capture, varName := b!"x" }]
    | _ => false

set_option maxRecDepth 100000 in
theorem manyVars_check : manyCheck [(manyVars, 1)] = true := by decide +kernel

theorem manyVars_route {l : List (Str × Nat)} (h : manyCheck l = true) :
    ∃ ps m p, Registered plainExt false sortSiblings ps m ∧ (∀ p ∈ ps, ∀ s ∈ p.segments, Plain false s) ∧
      lookup plainExt false m b!"/v" freshBuf 20 = some (.found p [.capture]) ∧
      p.segments = [{ val := b!"{x}", kind := .capture, varName := b!"x" }] ∧ p.captureVarsLen = 0 := by
  unfold manyCheck at h
  split at h
  · cases h
  · rename_i ps m hb
    simp only [Bool.and_eq_true] at h
    obtain ⟨h1, h2⟩ := h
    split at h2
    · rename_i p labels hl
      simp only [Bool.and_eq_true, beq_iff_eq] at h2
      obtain ⟨⟨rfl, h3⟩, h4⟩ := h2
      refine ⟨ps, m, p, build_registered hb, ?_, hl, h4, h3⟩
      intro p hp s hs
      simp only [List.all_eq_true] at h1
      exact plain_of_B (h1 p hp s hs)
    · cases h2

/-- C15 fails for a pattern with 256 variables (their number is kept in a `uint8`): what is left of it (see C09) describes the
request `/v` with `v` under the variable `x`, it is returned, and yet `PathVar("x")` is empty. -/
theorem c15_violated : ∃ ps m p labels segs, Registered plainExt false sortSiblings ps m ∧ (∀ p ∈ ps, ∀ s ∈ p.segments, Plain false s) ∧
    lookup plainExt false m b!"/v" freshBuf 20 = some (.found p labels) ∧ parseURLPath b!"/v" freshBuf = some segs ∧
    (∀ bs, Layout plainExt false p.segments (segmentsOf b!"/v") bs → valueIn b!"x" p.segments bs = some b!"v") ∧
    Layout plainExt false p.segments (segmentsOf b!"/v") [[b!"v"]] ∧
    pathVarText b!"/v" p labels segs b!"x" = some [] := by
  obtain ⟨ps, m, p, h1, h2, h3, hs, hc⟩ := manyVars_route manyVars_check
  refine ⟨ps, m, p, [.capture], [⟨1, 2⟩], h1, h2, h3, by decide, ?_, ?_, ?_⟩
  · rw [hs]
    rintro bs ⟨hb1, hb2, _⟩
    cases hb1 with
    | cons h t =>
      cases t
      rename_i b
      obtain ⟨u, rfl⟩ := List.length_eq_one_iff.1 (h.1 (by decide))
      have : [u] = [b!"v"] := by simpa using hb2.trans (by decide : segmentsOf b!"/v" = [b!"v"])
      cases this
      rfl
  · rw [hs]
    exact ⟨.cons ⟨fun _ => rfl, fun u _ => by simp [Fit]⟩ .nil, by decide, by intro s h; simp at h; subst h; intro h; cases h⟩
  · simp [pathVarText, pathVar, hc]

/-- C15 fails where C14 does: the variable `x` carries a text that no match of its pattern lays under it. -/
theorem c15_violated_constraint : ∃ ps m p labels segs, Registered plainExt false sortSiblings ps m ∧
    lookup plainExt false m b!"/b/q" freshBuf 10 = some (.found p labels) ∧ parseURLPath b!"/b/q" freshBuf = some segs ∧
    pathVarText b!"/b/q" p labels segs b!"x" = some b!"b" ∧ ∀ bs, ¬ Layout plainExt false p.segments (segmentsOf b!"/b/q") bs := by
  obtain ⟨ps, m, h1, h2, h3⟩ := checked_spec (x := plainExt) (ci := false) (l := [(b!"/{x:{a:b}}/q", 2), (b!"/{a:b}/p", 1)])
    (f := fun ps => ps.contains (patOf plainExt false b!"/{x:{a:b}}/q" 2)) (by decide +kernel)
  refine ⟨ps, m, patOf plainExt false b!"/{x:{a:b}}/q" 2, [.constraint, .literal], [⟨1, 2⟩, ⟨3, 4⟩], h1, (h3 _ _ _).symm.trans (by decide +kernel), by decide,
    by decide +kernel, ?_⟩
  have hseg : (patOf plainExt false b!"/{x:{a:b}}/q" 2).segments =
      [{ val := b!"{x:{a:b}}", kind := .constraint, varName := b!"x", re := some b!"{a:b}" }, { val := b!"q", kind := .literal }] := by decide +kernel
  rw [hseg]
  intro bs h
  obtain ⟨u, vs, h1, h2, _⟩ := (describes_one (by decide)).1 ⟨bs, h⟩
  obtain ⟨rfl, rfl⟩ : b!"b" = u ∧ [b!"q"] = vs := by
    have : segmentsOf b!"/b/q" = [b!"b", b!"q"] := by decide
    rw [this] at h1
    simpa using h1
  obtain ⟨src, h3, h4⟩ := h2
  cases h3
  revert h4
  decide

end Gofre.Props
