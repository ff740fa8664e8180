import Verif.Proofs.Redirect
import Verif.Model.Assets

/-! # Patterns whose pieces are literals followed by one given piece -/

namespace Gofre.Path
open Gofre.Spec Gofre.Mux

theorem literal_vals {ci : Bool} : ∀ {vs : List Str} {ss : List Segment}, All2 (Piece ci) vs ss → (∀ s ∈ ss, s.kind = .literal) →
    vs = ss.map (·.val) ∧ ∀ v ∈ vs, v ≠ [] := by
  intro vs ss h
  induction h with
  | nil => intro _; simp
  | cons h _ ih =>
    intro hl
    have hk := hl _ List.mem_cons_self
    obtain ⟨i1, i2⟩ := ih fun s hs => hl s (by simp [hs])
    cases h <;> simp at hk
    rename_i h0 _ _ _ _
    simp only [List.map_cons, List.mem_cons]
    exact ⟨by rw [← i1], fun v hv => hv.elim (fun e => e ▸ h0) (i2 v)⟩

theorem tail_segments {x : Ext} {ci : Bool} {R v : Str} {seg : Segment} {p : Pattern}
    (hp : parsePattern x ci (R ++ slash :: v) = .ok p) (hv : v ≠ []) (hs : slash ∉ v) (hpiece : Piece ci v seg) (hre : seg.re = none)
    (hlen : (pieces (R ++ slash :: v)).length < 256)
    (hlit : ∀ s ∈ p.segments.dropLast, s.kind = .literal ∧ s.val ≠ b!"..") :
    ∃ ls, p.segments = ls ++ [seg] ∧ (∀ s ∈ ls, s.kind = .literal) ∧ (splitOn slash R).drop 1 = ls.map (·.val) ∧
      (∀ u ∈ ls.map (·.val), u ≠ [] ∧ u ≠ b!"..") ∧ pieces (R ++ slash :: v) = ls.map (·.val) ++ [v] := by
  have hne : R ++ slash :: v ≠ b!"/" := by
    intro h
    have := congrArg List.length h
    cases v with
    | nil => exact hv rfl
    | cons c v => simp at this; omega
  obtain ⟨hsp, _⟩ := Gofre.Props.c05_segments x ci _ p hp hne hlen
  have hR : R = [] ∨ R.head? = some slash := by
    obtain ⟨body, hb, _⟩ := hsp.slashed
    cases R with
    | nil => exact .inl rfl
    | cons c R => simp only [List.cons_append, List.cons.injEq] at hb; exact .inr (by simp [hb.1])
  have hpc := pieces_snoc hv hs hR
  have hall := hsp.spelled
  rw [hpc] at hall
  obtain ⟨ls, ms, he, ha, hb⟩ := hall.append_inv_left
  cases hb with
  | cons hb hn =>
    cases hn
    rename_i s
    have hs : s = seg := Gofre.Props.c06_unambiguous x ci _ s seg hb hpiece (hsp.compile s (by simp [he])) (by simp [hre])
    subst hs
    rw [he, List.dropLast_concat] at hlit
    obtain ⟨hval, hnn⟩ := literal_vals ha fun s hs => (hlit s hs).1
    refine ⟨ls, he, fun s hs => (hlit s hs).1, hval, ?_, by rw [hpc, hval]⟩
    intro u hu
    refine ⟨hnn u (by rw [hval]; exact hu), ?_⟩
    obtain ⟨s, hs, rfl⟩ := List.mem_map.1 hu
    exact (hlit s hs).2

end Gofre.Path
