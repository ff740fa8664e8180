import Verif.Model.Trie
import Verif.Proofs.Sort

/-! # Sorting siblings -/

namespace Gofre.Path

theorem siblingLE_total (a b : Node) (h : siblingLE a b = false) : siblingLE b a = true := by
  unfold siblingLE at h ⊢
  by_cases e : a.prio = b.prio
  · rw [if_pos e] at h
    rw [if_pos e.symm]
    simp only [decide_eq_false_iff_not, decide_eq_true_eq] at h ⊢
    rcases List.le_total a.seg.val b.seg.val with h' | h'
    · exact absurd h' h
    · exact h'
  · rw [if_neg e] at h
    rw [if_neg (Ne.symm e)]
    simp only [decide_eq_false_iff_not, decide_eq_true_eq] at h ⊢
    omega

theorem siblingLE_trans (a b c : Node) (h : siblingLE a b = true) (h' : siblingLE b c = true) : siblingLE a c = true := by
  unfold siblingLE at *
  by_cases e : a.prio = b.prio <;> by_cases e' : b.prio = c.prio <;> simp only [e, e', if_true, if_false, decide_eq_true_eq] at h h' ⊢
  · exact List.le_trans h h'
  · exact h'
  · rw [e'] at e; rw [if_neg e] at h ⊢; exact h
  · have : a.prio ≠ c.prio := by omega
    rw [if_neg this]; simp; omega

/-- The siblings are in order after sorting. -/
theorem sortSiblings_sorted (l : List Node) : (sortSiblings l).Pairwise fun a b => siblingLE a b = true :=
  Sort.stable_sorted (le := fun a b => siblingLE a b = true)
    ⟨fun h h' => siblingLE_trans _ _ _ h h', fun h => h, fun h => siblingLE_total _ _ h⟩ l

/-- Sorting keeps the siblings. -/
theorem sortSiblings_perm (l : List Node) : (sortSiblings l).Perm l := Sort.stable_perm l

end Gofre.Path
