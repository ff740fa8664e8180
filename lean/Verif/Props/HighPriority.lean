import Verif.Props.Priority
import Verif.Proofs.Describes

/-! # C119: `HighPriorityThan` -/

namespace Gofre.Props
open Gofre.Path Gofre.Spec

/-- C119, the order: for all patterns, whatever they were made from, `HighPriorityThan` is
irreflexive, transitive, and true in exactly one direction for two patterns of different text. -/
theorem c119_order (p q r : Pattern) :
    p.highPriorityThan p = false ∧
      (p.highPriorityThan q = true → q.highPriorityThan r = true → p.highPriorityThan r = true) ∧
      (p.raw ≠ q.raw → (p.highPriorityThan q = true ↔ ¬ q.highPriorityThan p = true)) := by
  refine ⟨by simp [Pattern.highPriorityThan], ?_, ?_⟩
  · unfold Pattern.highPriorityThan
    intro h1 h2
    split at h1 <;> split at h2 <;> simp only [decide_eq_true_eq] at h1 h2
    · rename_i e1 e2
      rw [if_pos (e1.trans e2)]
      exact decide_eq_true (List.lt_trans h1 h2)
    · rename_i e1 e2
      rw [if_neg (by omega)]; exact decide_eq_true (by omega)
    · rename_i e1 e2
      rw [if_neg (by omega)]; exact decide_eq_true (by omega)
    · rw [if_neg (by omega)]; exact decide_eq_true (by omega)
  · intro hne
    unfold Pattern.highPriorityThan
    by_cases e : p.priority = q.priority
    · rw [if_pos e, if_pos e.symm]
      simp only [decide_eq_true_eq]
      constructor
      · intro h h'; exact List.lt_irrefl _ (List.lt_trans h h')
      · intro h
        by_cases h' : p.raw < q.raw
        · exact h'
        · exact absurd (List.le_antisymm h h') hne
    · rw [if_neg e, if_neg (Ne.symm e)]
      simp only [decide_eq_true_eq]
      omega

/-- C119, the meaning, for patterns of at most 19 pieces with at most one `**`: the kinds decide from
left to right, a `**` standing for as many segments as fit, then the texts. -/
theorem c119_specific_partial (x : Ext) (ci : Bool) (pat pat' : Str) (p p' : Pattern)
    (h : parsePattern x ci pat = .ok p) (h' : parsePattern x ci pat' = .ok p')
    (h19 : (pieces pat).length ≤ 19) (h19' : (pieces pat').length ≤ 19)
    (h1 : (pieces pat).count b!"**" ≤ 1) (h1' : (pieces pat').count b!"**" ≤ 1) :
    p.highPriorityThan p' = true ↔
      spread (p.segments.map (·.kind)) < spread (p'.segments.map (·.kind)) ∨
      spread (p.segments.map (·.kind)) = spread (p'.segments.map (·.kind)) ∧ pat < pat' := by
  obtain ⟨hlt, heq⟩ := c08_one_double_star_partial x ci pat pat' p p' h h' h19 h19' h1 h1'
  have hr := parse_raw h
  have hr' := parse_raw h'
  unfold Pattern.highPriorityThan
  by_cases e : p.priority = p'.priority
  · rw [if_pos e, hr, hr']
    have hn : ¬ spread (p.segments.map (·.kind)) < spread (p'.segments.map (·.kind)) := by rw [← hlt]; omega
    simp only [decide_eq_true_eq]
    exact ⟨fun h => .inr ⟨heq.1 e, h⟩, fun h => h.elim (fun h => absurd h hn) (·.2)⟩
  · rw [if_neg e]
    have hn := mt heq.2 e
    simp only [decide_eq_true_eq, hn, false_and, or_false, hlt]

/-- `/a/{x}` before `/a/{y}` before `/a/*`. -/
example : (do
    let a ← (match parsePattern anyExt false b!"/a/{x}" with | .ok p => some p | _ => none)
    let b ← (match parsePattern anyExt false b!"/a/{y}" with | .ok p => some p | _ => none)
    let c ← (match parsePattern anyExt false b!"/a/*" with | .ok p => some p | _ => none)
    some (a.highPriorityThan b && b.highPriorityThan c && a.highPriorityThan c)) = some true := by decide +kernel

/-- C119 fails with several `**`: of two patterns that first differ where one has a variable and the
other literal text, the one with the variable is before the other. -/
theorem c119_violated : ∃ p q, parsePattern anyExt false b!"/**/{x}/a/**" = .ok p ∧
    parsePattern anyExt false b!"/**/a/**/b" = .ok q ∧ p.highPriorityThan q = true :=
  ⟨_, _, rfl, rfl, by decide +kernel⟩

end Gofre.Props
